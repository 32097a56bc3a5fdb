import Verif.Props.Composition
import Verif.Props.DecomposeChars
/-
Property theorems C102: to_composed applied twice, to_composed after to_decomposed, and the number of characters.
-/
namespace Ystring
open Spec

/-! ### Lookups of composed characters -/

theorem seq_lt {u : Str} {c : Char32} (h : IsSeq u c) : c.toNat < 2 ^ 21 := by
  cases h with
  | one h1 h2 => omega
  | two h1 h2 h3 h4 => unfold IsCont at *; omega
  | three h1 h2 h3 h4 h5 => unfold IsCont at *; omega
  | four h1 h2 h3 h4 h5 h6 => unfold IsCont at *; omega

theorem lowerBoundGo_le (less : Nat → Bool) : ∀ (fuel first len : Nat), lowerBoundGo less fuel first len ≤ first + len := by
  intro fuel
  induction fuel with
  | zero => intro first len; simp [lowerBoundGo]
  | succ fuel ih =>
    intro first len
    simp only [lowerBoundGo]
    split
    · omega
    · split
      · have := ih (first + len / 2 + 1) (len - len / 2 - 1); omega
      · have := ih first (len / 2); omega

theorem findComposed_composite {ch mark d : Char32} (h : findComposed ch mark = .ok d) (h0 : d ≠ 0) :
    ∃ b m, (d.toNat, b, m) ∈ UD_PAIRS := by
  unfold findComposed findComposedIn at h
  split at h
  · cases h; exact absurd rfl h0
  · simp only at h
    split at h
    · cases h
    · rename_i hne
      split at h
      · cases h; exact absurd rfl h0
      · have h := Except.ok.inj h
        subst h
        have hle := lowerBoundGo_le (fun i => decide (TO_COMPOSED.getD i 0 <
          ((ch.toNat * 2 ^ 20 % 2 ^ 64) ||| mark.toNat) * 2 ^ 20 % 2 ^ 64)) TO_COMPOSED.length 0 TO_COMPOSED.length
        rw [← lowerBound] at hle
        generalize lowerBound (fun i => decide (TO_COMPOSED.getD i 0 <
          ((ch.toNat * 2 ^ 20 % 2 ^ 64) ||| mark.toNat) * 2 ^ 20 % 2 ^ 64)) TO_COMPOSED.length = it at *
        have hmem : TO_COMPOSED.getD it 0 ∈ TO_COMPOSED := by
          rw [getD_getElem _ _ (by omega)]; exact List.getElem_mem _
        obtain ⟨p, hp, e⟩ := (mem_composed _).mp hmem
        have f := pair_facts (c := p.1) (b := p.2.1) (m := p.2.2) hp
        have := (entry_key p.2.1 p.2.2 p.1 f.hc.2).2
        rw [← e] at this
        rw [this, toNat_ofNat32 (by have := f.hc.2; omega)]
        exact ⟨_, _, hp⟩

/-- the value is a canonical composite -/
def IsComp (c : Char32) : Prop := ∃ b m, (c.toNat, b, m) ∈ UD_PAIRS

/-- a composite is never the second component of a pair -/
theorem findComposed_second {ch d : Char32} (hc : ch.toNat < 2 ^ 21) (hd : IsComp d) :
    findComposed ch d = .ok 0 ∨ findComposed ch d = .error .ub := by
  obtain ⟨b, m, h⟩ := hd
  have f := pair_facts h
  rw [findComposed_eq ch d hc (by have := f.hc.2; omega)]
  split
  · exact .inl rfl
  · unfold composedByKey
    split
    · exact .inr rfl
    · split
      · exact .inl rfl
      · left
        obtain ⟨e1, e2⟩ := key_parts ch.toNat d.toNat (by have := f.hc.2; omega)
        rw [e1, e2]
        cases hx : composite ch.toNat d.toNat with
        | none => rfl
        | some x =>
          have h1 := (composite_facts hx).mpair
          rw [pairOf_of_mem h] at h1
          cases h1

/-! ### The pieces as units -/

/-- as `uRuns`, with the code points -/
def vRuns : (cur : Unit8) → (f : Bool) → List Unit8 → Res (List (Bool × Unit8))
  | cur, f, [] => .ok [(f, cur)]
  | cur, f, u :: us => do
    let d ← findComposed cur.2 u.2
    if d = 0 then do
      let ps ← vRuns u false us
      .ok ((f, cur) :: ps)
    else vRuns (encodeUtf8 d, d) true us

theorem uRuns_eq (us : List Unit8) : ∀ (cur : Unit8) (f : Bool),
    uRuns cur.2 f cur.1 us = (vRuns cur f us >>= fun ps => .ok (ps.map (fun p => (p.1, p.2.1)))) := by
  induction us with
  | nil => intro cur f; rfl
  | cons u us ih =>
    intro cur f
    simp only [uRuns, vRuns]
    cases hf : findComposed cur.2 u.2 with
    | error e => rfl
    | ok d =>
      rw [bind_ok', bind_ok']
      by_cases h0 : d = 0
      · rw [if_pos h0, if_pos h0, ih u false]
        cases vRuns u false us with
        | error e => rfl
        | ok ps => rfl
      · rw [if_neg h0, if_neg h0, ih (encodeUtf8 d, d) true]

/-- the pieces cannot be composed further -/
def Settled : List (Bool × Unit8) → Prop
  | [] => True
  | [p] => p.1 = true → IsComp p.2.2
  | p :: q :: r => (p.1 = true → IsComp p.2.2) ∧ (q.1 = false → findComposed p.2.2 q.2.2 = .ok 0) ∧ Settled (q :: r)

theorem vRuns_settled (us : List Unit8) (h : Units us) : ∀ (cur : Unit8) (f : Bool) (ps : List (Bool × Unit8)),
    IsSeq cur.1 cur.2 → (f = true → IsComp cur.2) → vRuns cur f us = .ok ps →
    Settled ps ∧ (∀ p ∈ ps, IsSeq p.2.1 p.2.2) ∧ ∃ q qs, ps = q :: qs ∧ (q = (f, cur) ∨ q.1 = true) := by
  induction us with
  | nil =>
    intro cur f ps hc hf e
    cases e
    exact ⟨hf, by simpa using hc, _, _, rfl, .inl rfl⟩
  | cons u us ih =>
    intro cur f ps hc hf e
    rw [Units_cons] at h
    simp only [vRuns] at e
    cases hd : findComposed cur.2 u.2 with
    | error x => rw [hd] at e; cases e
    | ok d =>
      rw [hd, bind_ok'] at e
      by_cases h0 : d = 0
      · rw [if_pos h0] at e
        cases hr : vRuns u false us with
        | error x => rw [hr] at e; cases e
        | ok qs =>
          rw [hr, bind_ok'] at e
          cases e
          obtain ⟨a1, a2, q, rs, rfl, a3⟩ := ih h.2 u false qs h.1 (by simp) hr
          refine ⟨⟨hf, ?_, a1⟩, ?_, _, _, rfl, .inl rfl⟩
          · intro hq
            rcases a3 with rfl | a3
            · rw [hd, h0]
            · rw [a3] at hq; cases hq
          · intro p hp
            rcases List.mem_cons.mp hp with rfl | hp
            · exact hc
            · exact a2 p hp
      · rw [if_neg h0] at e
        obtain ⟨b, m, hmem⟩ := findComposed_composite hd h0
        have hlt := (pair_facts hmem).hc.2
        obtain ⟨a1, a2, q, rs, rfl, a3⟩ := ih h.2 (encodeUtf8 d, d) true ps (encodeUtf8_seq d (by omega)) (fun _ => ⟨b, m, hmem⟩) e
        refine ⟨a1, a2, q, rs, rfl, .inr ?_⟩
        rcases a3 with rfl | a3
        · rfl
        · exact a3

/-- adjacent code points are no pair -/
def Calm : List Unit8 → Prop
  | [] => True
  | [_] => True
  | a :: b :: r => (findComposed a.2 b.2 = .ok 0 ∨ IsComp b.2) ∧ Calm (b :: r)

theorem calm_cons {a b : Unit8} {r : List Unit8} : Calm (a :: b :: r) ↔ (findComposed a.2 b.2 = .ok 0 ∨ IsComp b.2) ∧ Calm (b :: r) :=
  Iff.rfl

attribute [local irreducible] findComposed IsComp

theorem settled_tail {p : Bool × Unit8} {ps : List (Bool × Unit8)} (h : Settled (p :: ps)) : Settled ps := by
  cases ps with
  | nil => trivial
  | cons q ps => exact h.2.2

theorem settled_head {p : Bool × Unit8} {ps : List (Bool × Unit8)} (h : Settled (p :: ps)) : p.1 = true → IsComp p.2.2 := by
  cases ps with
  | nil => exact h
  | cons q ps => exact h.1

theorem settled_link {p : Bool × Unit8} {ps : List (Bool × Unit8)} (h : Settled (p :: ps)) :
    ∀ q qs, ps = q :: qs → q.1 = false → findComposed p.2.2 q.2.2 = .ok 0 := by
  rintro q qs rfl
  exact h.2.1

theorem dropLost_calm (ps : List (Bool × Unit8)) : ∀ (pc : Bool) (a : Unit8), Settled ps →
    (∀ q qs, ps = q :: qs → q.1 = false → findComposed a.2 q.2.2 = .ok 0) → Calm (a :: dropLost pc ps) := by
  induction ps with
  | nil => intro pc a _ _; trivial
  | cons p ps ih =>
    intro pc a hs hl
    obtain ⟨f, c⟩ := p
    cases f with
    | true =>
      simp only [dropLost]
      exact ⟨.inr (settled_head hs rfl), ih true c (settled_tail hs) (settled_link hs)⟩
    | false =>
      simp only [dropLost]
      split
      · rename_i hd
        refine ih false a (settled_tail hs) ?_
        rintro q qs rfl hq
        simp only [endsHere, Bool.and_eq_true] at hd
        rw [hd.2] at hq
        cases hq
      · exact ⟨.inl (hl _ _ rfl rfl), ih false c (settled_tail hs) (settled_link hs)⟩

theorem vRuns_calm (us : List Unit8) (h : Units us) : ∀ (cur : Unit8), IsSeq cur.1 cur.2 → Calm (cur :: us) →
    vRuns cur false us = .ok ((cur :: us).map (fun u => (false, u))) ∨ vRuns cur false us = .error .ub := by
  induction us with
  | nil => intro cur _ _; exact .inl rfl
  | cons u us ih =>
    intro cur hc hl
    rw [Units_cons] at h
    rw [calm_cons] at hl
    simp only [vRuns]
    have h1 : findComposed cur.2 u.2 = .ok 0 ∨ findComposed cur.2 u.2 = .error .ub := by
      rcases hl.1 with h1 | h1
      · exact .inl h1
      · exact findComposed_second (seq_lt hc) h1
    rcases h1 with h1 | h1
    · rw [h1, bind_ok', if_pos rfl]
      rcases ih h.2 u h.1 hl.2 with e | e
      · rw [e]; exact .inl rfl
      · rw [e]; exact .inr rfl
    · rw [h1]; exact .inr rfl

theorem dropLost_copied {α : Type} (l : List α) : dropLost false (l.map (fun u => (false, u))) = l := by
  induction l with
  | nil => rfl
  | cons c cs ih => simp only [List.map_cons, dropLost, Bool.false_and, ih]; rfl

theorem dropLost_head {α : Type} (p : Bool × α) (ps : List (Bool × α)) : dropLost false (p :: ps) = p.2 :: dropLost p.1 ps := by
  obtain ⟨f, c⟩ := p
  cases f <;> simp [dropLost]

/-- results of to_composed -/
theorem toComposed_ok {s t : Str} (h : toComposed s = .ok t) : (s = [] ∧ t = []) ∨ ∃ u us ps, Units (u :: us) ∧
    bytesOf (u :: us) = s ∧ vRuns u false us = .ok ps ∧ t = bytesOf (dropLost false ps) := by
  obtain ⟨us, r, hu, rfl, hr⟩ := splitUnits s
  cases us with
  | nil =>
    by_cases h0 : r = []
    · subst h0; cases h; exact .inl ⟨rfl, rfl⟩
    · rw [bytesOf_nil, List.nil_append, toComposed_bad r hr h0] at h; cases h
  | cons u us =>
    have h' := Units_cons.mp hu
    rw [bytesOf_cons, List.append_assoc, toComposed_units u us r h'.1 h'.2 hr, uRuns_eq] at h
    cases hv : vRuns u false us with
    | error e => rw [hv] at h; cases h
    | ok ps =>
      rw [hv, bind_ok', bind_ok', dropLost_map (fun x : Unit8 => x.1)] at h
      unfold tailC at h
      split at h
      · rename_i h0
        subst h0
        cases h
        exact .inr ⟨u, us, ps, hu, by simp, hv, by rw [← List.flatMap_def]; rfl⟩
      · cases h

theorem toComposed_of_units {u : Unit8} {us : List Unit8} (h : Units (u :: us)) :
    toComposed (bytesOf (u :: us)) = (vRuns u false us >>= fun ps => .ok (bytesOf (dropLost false ps))) := by
  have h' := Units_cons.mp h
  have e := toComposed_units u us [] h'.1 h'.2 not_hasSeqPrefix_nil
  rw [List.append_nil] at e
  rw [bytesOf_cons, e, uRuns_eq]
  cases vRuns u false us with
  | error e => rfl
  | ok ps =>
    rw [bind_ok', bind_ok', dropLost_map (fun x : Unit8 => x.1), bind_ok', ← List.flatMap_def]; rfl

/-- C102: to_composed(to_composed(s)) = to_composed(s) for every byte string, unless the second call reads past
the table (C102_twice_ub: this happens). -/
theorem C102_twice_any (s t : Str) (h : toComposed s = .ok t) : toComposed t = .ok t ∨ toComposed t = .error .ub := by
  rcases toComposed_ok h with ⟨rfl, rfl⟩ | ⟨u, us, ps, hu, rfl, hv, rfl⟩
  · exact .inl rfl
  · have h' := Units_cons.mp hu
    obtain ⟨a1, a2, q, qs, rfl, -⟩ := vRuns_settled us h'.2 u false ps h'.1 (by simp) hv
    have hc := dropLost_calm qs q.1 q.2 (settled_tail a1) (settled_link a1)
    rw [dropLost_head]
    have hun : Units (q.2 :: dropLost q.1 qs) := by
      rw [← dropLost_head]
      intro x hx
      obtain ⟨p, hp, rfl⟩ := dropLost_mem _ _ x hx
      exact a2 p hp
    have hun' := Units_cons.mp hun
    rw [toComposed_of_units hun]
    rcases vRuns_calm _ hun'.2 q.2 hun'.1 hc with e | e
    · rw [e, bind_ok', dropLost_copied]; exact .inl rfl
    · rw [e]; exact .inr rfl

/-! ### Text before the last pair of the table -/

theorem findComposed_low {ch mark : Char32} (hc : ch.toNat < 0x1D1BC) (hm : mark.toNat < 0x1D1BC) :
    ∃ d, findComposed ch mark = .ok d ∧ d.toNat < 0x1D1BC := by
  have e := findComposed_nat ch.toNat mark.toNat (by omega) (by omega)
  rw [UInt32.ofNat_toNat, UInt32.ofNat_toNat, if_pos (by rw [stepOk_iff]; omega)] at e
  refine ⟨_, e, ?_⟩
  cases hl : libComposite ch.toNat mark.toNat with
  | none => decide
  | some c =>
    obtain ⟨hb, hcc⟩ := libComposite_facts hl
    have hs := List.all_eq_true.mp pairs_small _ (composite_mem hcc)
    simp only [Bool.or_eq_true, Nat.ble_eq, Nat.blt_eq] at hs
    rw [Option.getD_some, toNat_ofNat32 (by omega)]
    omega

theorem vRuns_low (us : List Unit8) (h : ∀ u ∈ us, u.2.toNat < 0x1D1BC) : ∀ (cur : Unit8) (f : Bool), cur.2.toNat < 0x1D1BC →
    ∃ ps, vRuns cur f us = .ok ps ∧ ∀ p ∈ ps, p.2.2.toNat < 0x1D1BC := by
  induction us with
  | nil => intro cur f hc; exact ⟨_, rfl, by simpa using hc⟩
  | cons u us ih =>
    intro cur f hc
    obtain ⟨d, e, hd⟩ := findComposed_low hc (h u (by simp))
    simp only [vRuns]
    rw [e, bind_ok']
    have ih := ih (fun x hx => h x (by simp [hx]))
    by_cases h0 : d = 0
    · rw [if_pos h0]
      obtain ⟨ps, e2, h2⟩ := ih u false (h u (by simp))
      rw [e2]
      refine ⟨_, rfl, ?_⟩
      intro p hp
      rcases List.mem_cons.mp hp with rfl | hp
      · exact hc
      · exact h2 p hp
    · rw [if_neg h0]
      exact ih (encodeUtf8 d, d) true hd

/-- C102: for text below U+1D1BC to_composed returns, and composing the result again changes nothing. -/
theorem C102_twice (s : Str) (cs : List Char32) (h : Decodes s cs) (hl : ∀ c ∈ cs, c.toNat < 0x1D1BC) :
    ∃ t, toComposed s = .ok t ∧ toComposed t = .ok t := by
  obtain ⟨us, hu, rfl, rfl⟩ := h.units
  cases us with
  | nil => exact ⟨[], rfl, rfl⟩
  | cons u us =>
    have hlow : ∀ x ∈ u :: us, x.2.toNat < 0x1D1BC := fun x hx => hl x.2 (List.mem_map_of_mem hx)
    obtain ⟨ps, e, hp⟩ := vRuns_low us (fun x hx => hlow x (by simp [hx])) u false (hlow u (by simp))
    have h1 : toComposed (bytesOf (u :: us)) = .ok (bytesOf (dropLost false ps)) := by
      rw [toComposed_of_units hu, e]; rfl
    refine ⟨_, h1, ?_⟩
    have h' := Units_cons.mp hu
    obtain ⟨a1, a2, q, qs, rfl, -⟩ := vRuns_settled us h'.2 u false ps h'.1 (by simp) e
    rcases C102_twice_any _ _ h1 with h2 | h2
    · exact h2
    · exfalso
      have hun : Units (q.2 :: dropLost q.1 qs) := by
        rw [← dropLost_head]
        intro x hx
        obtain ⟨p, hp', rfl⟩ := dropLost_mem _ _ x hx
        exact a2 p hp'
      have hlow2 : ∀ x ∈ q.2 :: dropLost q.1 qs, x.2.toNat < 0x1D1BC := by
        rw [← dropLost_head]
        intro x hx
        obtain ⟨p, hp', rfl⟩ := dropLost_mem _ _ x hx
        exact hp p hp'
      obtain ⟨ps', e', -⟩ := vRuns_low (dropLost q.1 qs) (fun x hx => hlow2 x (by simp [hx])) q.2 false (hlow2 q.2 (by simp))
      rw [dropLost_head, toComposed_of_units hun, e'] at h2
      cases h2

/-- C102: but a string that can be composed may not be composed again: the result for U+1F600, A, U+0323 is U+1F600 U+1EA0, for
which the second call reads past the end of its table. -/
theorem C102_twice_ub : toComposed (utf8 [0x1F600, 0x41, 0x323]) = .ok (utf8 [0x1F600, 0x1EA0]) ∧
    toComposed (utf8 [0x1F600, 0x1EA0]) = .error .ub :=
  ⟨by decide +kernel, C55_false_ub 0x1F600 0x1EA0 (by omega) (by omega) (by omega) (by omega)⟩

/-! ### Characters -/

theorem comp_marks {b m c : Nat} (h : libComposite b m = some c) :
    isMark (UInt32.ofNat c) = isMark (UInt32.ofNat b) ∧ isMark (UInt32.ofNat m) = true := by
  obtain ⟨hb, hc⟩ := libComposite_facts h
  have hs := List.all_eq_true.mp pairs_small _ (composite_mem hc)
  simp only [Bool.or_eq_true, Nat.ble_eq, Nat.blt_eq] at hs
  have := pair_marks (pairOf_of_mem (composite_mem hc))
  refine ⟨this.1, (this.2 ?_).1⟩
  simp only [kiratRai, List.mem_cons, List.not_mem_nil, or_false]
  omega

theorem bases_cons (u : Unit8) (us : List Unit8) : bases (u :: us) = bases [u] + bases us := bases_append [u] us

theorem natUnits_cons (c : Nat) (cs : List Nat) : natUnits (c :: cs) = (rfcEncode c, UInt32.ofNat c) :: natUnits cs := rfl

theorem composeRuns_bases (cs : List Nat) : ∀ (cur : Nat) (f : Bool),
    bases (natUnits ((composeRuns libComposite cur f cs).map (·.2))) = bases (natUnits (cur :: cs)) ∧
    headMark (natUnits ((composeRuns libComposite cur f cs).map (·.2))) = headMark (natUnits (cur :: cs)) := by
  induction cs with
  | nil => intro cur f; exact ⟨rfl, rfl⟩
  | cons m cs ih =>
    intro cur f
    simp only [composeRuns]
    cases hl : libComposite cur m with
    | none =>
      simp only [List.map_cons]
      rw [natUnits_cons, bases_cons, (ih m false).1, natUnits_cons cur, bases_cons (_, _) (natUnits (m :: cs))]
      exact ⟨rfl, rfl⟩
    | some c =>
      obtain ⟨h1, h2⟩ := comp_marks hl
      simp only
      rw [(ih c true).1, (ih c true).2, natUnits_cons, natUnits_cons, natUnits_cons, bases_cons, bases_cons (rfcEncode cur, _),
        bases_cons (rfcEncode m, _)]
      simp [bases, headMark, h1, h2]

theorem count_units {us : List Unit8} (h : Units us) (hl : (bytesOf us).length < SIZE_MOD) :
    countChars (bytesOf us) = .ok (bases us + headMark us) := by
  obtain ⟨gs, hg, e⟩ := groups_exist us h
  have c1 := groups_characters hg
  rw [e] at c1
  rw [C25_count_chars _ _ c1 hl, List.length_map, groups_count hg, e]

theorem dropLost_sublist {α : Type} (ps : List (Bool × α)) : ∀ pc, (dropLost pc ps).Sublist (ps.map (·.2)) := by
  induction ps with
  | nil => intro pc; exact .slnil
  | cons p ps ih =>
    intro pc
    obtain ⟨f, c⟩ := p
    cases f with
    | true => simp only [dropLost, List.map_cons]; exact (ih true).cons_cons c
    | false =>
      simp only [dropLost, List.map_cons]
      split
      · exact (ih false).cons c
      · exact (ih false).cons_cons c

theorem composeRuns_lt (cs : List Nat) (h : ∀ c ∈ cs, c < 0x100000) : ∀ (cur : Nat) (f : Bool), cur < 0x100000 →
    ∀ p ∈ composeRuns libComposite cur f cs, p.2 < 0x100000 := by
  induction cs with
  | nil => intro cur f hc p hp; simp only [composeRuns, List.mem_cons, List.not_mem_nil, or_false] at hp; subst hp; exact hc
  | cons m cs ih =>
    intro cur f hc p hp
    have ih := ih (fun c hc => h c (by simp [hc]))
    simp only [composeRuns] at hp
    cases hl : libComposite cur m with
    | none =>
      rw [hl] at hp
      rcases List.mem_cons.mp hp with rfl | hp
      · exact hc
      · exact ih m false (h m (by simp)) p hp
    | some c =>
      rw [hl] at hp
      have := (composite_facts (libComposite_facts hl).2).hc
      exact ih c true (by omega) p hp

/-- C102: for text below U+100000, composing never increases the number of characters, and keeps it if no code point is lost
(C55). -/
theorem C102_count (cs : List Nat) (t : Str) (h : ∀ c ∈ cs, c < 0x100000) (ht : toComposed (utf8 cs) = .ok t)
    (hl : (utf8 cs).length < SIZE_MOD) (hl' : t.length < SIZE_MOD) :
    ∃ k n, countChars (utf8 cs) = .ok k ∧ countChars t = .ok n ∧ n ≤ k ∧ (NothingLost cs → n = k) := by
  have hn : NoOverrun cs := by
    by_cases hn : NoOverrun cs
    · exact hn
    · rw [(C55_exact cs h).2 hn] at ht; cases ht
  rw [(C55_exact cs h).1 hn] at ht
  cases ht
  cases cs with
  | nil => exact ⟨0, 0, by decide +kernel, by decide +kernel, by omega, by simp⟩
  | cons c cs =>
    obtain ⟨hu, he⟩ := natUnits_spec (c :: cs) (fun x hx => by have := h x hx; omega)
    have hlt := composeRuns_lt cs (fun x hx => h x (by simp [hx])) c false (h c (by simp))
    have hlt2 : ∀ x ∈ dropLost false (composePieces libComposite (c :: cs)), x ≤ 0x10FFFF := by
      intro x hx
      obtain ⟨p, hp, rfl⟩ := dropLost_mem _ _ x hx
      have := hlt p hp
      omega
    obtain ⟨hu2, he2⟩ := natUnits_spec _ hlt2
    obtain ⟨b1, b2⟩ := composeRuns_bases cs c false
    have hsub := dropLost_sublist (composeRuns libComposite c false cs) false
    have hb : bases (natUnits (dropLost false (composeRuns libComposite c false cs))) ≤ bases (natUnits (c :: cs)) := by
      rw [← b1]
      exact List.Sublist.countP_le (hsub.map _)
    have hh : headMark (natUnits (dropLost false (composeRuns libComposite c false cs))) = headMark (natUnits (c :: cs)) := by
      rw [← b2]
      cases composeRuns libComposite c false cs with
      | nil => rfl
      | cons p ps => rw [dropLost_head]; rfl
    refine ⟨bases (natUnits (c :: cs)) + headMark (natUnits (c :: cs)),
      bases (natUnits (dropLost false (composeRuns libComposite c false cs))) +
        headMark (natUnits (dropLost false (composeRuns libComposite c false cs))), ?_, ?_, ?_, ?_⟩
    · rw [← he] at hl ⊢
      exact count_units hu hl
    · rw [← he2] at hl' ⊢
      exact count_units hu2 hl'
    · omega
    · intro hnl
      unfold NothingLost at hnl
      simp only [composePieces] at hnl
      rw [hnl, b1, b2]

/-! ### There and back -/

theorem small_pairs : (deepPairs.filter (fun p => Nat.blt p.2.1 0x1000)).all (fun p => match pairOf p.2.1 with
    | none => true
    | some q => Nat.blt q.1 0x1000 && (pairOf q.1).isNone) = true := by decide +kernel

theorem small_pair {c b m b2 m2 : Nat} (h : pairOf c = some (b, m)) (hb : b < 0x1000) (h2 : pairOf b = some (b2, m2)) :
    b2 < 0x1000 ∧ pairOf b2 = none := by
  have := List.all_eq_true.mp small_pairs (c, b, m) (by
    rw [List.mem_filter]
    refine ⟨?_, by simpa using hb⟩
    unfold deepPairs
    simp only [List.mem_filter]
    refine ⟨pairOf_mem h, ?_⟩
    cases e : inMask pairMask b
    · rw [(pairMask_iff b).mp e] at h2; cases h2
    · rfl)
  simpa [h2] using this

theorem composite_of_pair {c b m : Nat} (h : pairOf c = some (b, m)) : composite b m = some c := by
  have hm := pairOf_mem h
  cases hc : composite b m with
  | none => exact absurd hm (composite_none hc c)
  | some d =>
    have hd := composite_mem hc
    have f := pair_facts hm
    have g := pair_facts hd
    have e := key_inj keys_lt (entry_mem hm) (entry_mem hd) (by
      rw [(entry_key b m c f.hc.2).1, (entry_key b m d g.hc.2).1])
    have : c = d := by omega
    rw [this]

theorem lib_some {c b m : Nat} (h : pairOf c = some (b, m)) (hb : b < 0x1000) : libComposite b m = some c := by
  unfold libComposite; rw [if_pos hb, composite_of_pair h]

theorem lib_none {b : Nat} (m : Nat) (hb : ¬ b < 0x1000) : libComposite b m = none := by
  unfold libComposite; rw [if_neg hb]

theorem utf8_inj {cs ds : List Nat} (h : ∀ c ∈ cs, c ≤ 0x10FFFF) (h' : ∀ c ∈ ds, c ≤ 0x10FFFF) (e : utf8 cs = utf8 ds) : cs = ds := by
  obtain ⟨a1, a2⟩ := natUnits_spec cs h
  obtain ⟨b1, b2⟩ := natUnits_spec ds h'
  have := units_unique a1 b1 (by rw [a2, b2, e])
  have := congrArg (List.map (fun u : Unit8 => u.2.toNat)) this
  have hm : ∀ l : List Nat, (∀ c ∈ l, c ≤ 0x10FFFF) → (natUnits l).map (fun u : Unit8 => u.2.toNat) = l := by
    intro l hl
    induction l with
    | nil => rfl
    | cons c l ih =>
      rw [natUnits_cons, List.map_cons, ih (fun x hx => hl x (by simp [hx]))]
      simp only
      have := hl c (by simp)
      rw [toNat_ofNat32 (by omega)]
  rwa [hm cs h, hm ds h'] at this

theorem dec_one {c : Nat} (hc : c ≤ 0x10FFFF) (h3 : (chainOf c).length ≤ 3) (g : Nat) :
    toDecomposed (utf8 [c]) (g + 1) = .ok (utf8 (chainOf c)) := by
  obtain ⟨a1, a2⟩ := natUnits_spec [c] (by simpa using hc)
  have hn : (UInt32.ofNat c).toNat = c := toNat_ofNat32 (by omega)
  rw [← a2, toDecomposed_of_units a1 (by simpa [natUnits, hn] using h3), (decUnits_all _ a1).2.1]
  have e := decPiece_encode (UInt32.ofNat c)
  rw [hn] at e
  simp only [natUnits, List.map_cons, List.map_nil, List.flatMap_cons, List.flatMap_nil, List.append_nil]
  rw [e]
  have hb := chain_bound (chainOf_spec c)
  congr 1
  unfold encodeAll utf8
  rw [List.flatMap_map]
  apply flatMap_congr'
  intro x hx
  have hx' : x ≤ 0x10FFFF := by
    by_cases hl : (chainOf c).length = 1
    · have hs := chainOf_spec c
      generalize chainOf c = l at *
      cases hs <;> simp at hl hx
      omega
    · exact hb hl x hx
  rw [toNat_ofNat32 (by omega)]

theorem dec_four {c : Nat} (hc : c ≤ 0x10FFFF) (h3 : ¬ (chainOf c).length ≤ 3) (g : Nat) :
    toDecomposed (utf8 [c]) g = .error .diverge := by
  obtain ⟨a1, a2⟩ := natUnits_spec [c] (by simpa using hc)
  have := toDecomposed_diverge' (natUnits [c]) a1 [] ⟨_, List.mem_singleton.mpr rfl, by
    rw [toNat_ofNat32 (by omega)]; exact h3⟩ g
  rwa [List.append_nil, a2] at this

theorem toComposed_utf8 {cs : List Nat} (h : ∀ c ∈ cs, c < 0x100000) {t : Str} (ht : toComposed (utf8 cs) = .ok t) :
    t = utf8 (dropLost false (composePieces libComposite cs)) := by
  by_cases hn : NoOverrun cs
  · rw [(C55_exact cs h).1 hn] at ht; exact (Except.ok.inj ht).symm
  · rw [(C55_exact cs h).2 hn] at ht; cases ht

theorem noOverrun_low {cs : List Nat} (h : ∀ c ∈ cs, c < 0x1D1BC) : NoOverrun cs := by
  rintro p a b q rfl
  exact .inr (.inl (h a (by simp)))

/-- one code point: the result of composing its table decomposition -/
theorem chain_back {c : Nat} (hc : c < 0x100000) (h3 : (chainOf c).length ≤ 3) :
    toComposed (utf8 (chainOf c)) = .ok (utf8 [c]) ↔ ∀ b m, pairOf c = some (b, m) → b < 0x1000 := by
  have hs := chainOf_spec c
  generalize chainOf c = l at *
  cases hs with
  | d0 h =>
    refine ⟨fun _ b m e => ?_, fun _ => ?_⟩
    · rw [h] at e; cases e
    · refine (C55_exact [c] (by simpa using hc)).1 ?_
      intro p a b q e
      have := congrArg List.length e
      simp at this
      omega
  | @d1 b m h h2 =>
    have f := pairOf_facts h
    have hlt : ∀ x ∈ [b, m], x < 0x100000 := by
      have := f.hb; have := f.hm; simp; omega
    constructor
    · intro e b' m' e'
      rw [h] at e'; cases e'
      by_cases hb : b < 0x1000
      · exact hb
      · exfalso
        have := toComposed_utf8 hlt e
        simp only [composePieces, composeRuns, lib_none m hb, dropLost] at this
        have := utf8_inj (by simp; omega) (by intro x hx; have := hlt x (by simpa [endsHere] using hx); omega) this
        simp [endsHere] at this
    · intro hb
      have hb := hb b m h
      rw [(C55_exact [b, m] hlt).1 (by
        intro p x y q e
        have : x < 0x1000 := by
          cases p with
          | nil => simp at e; omega
          | cons z p =>
            have := congrArg List.length e
            simp at this
            omega
        omega)]
      simp only [composePieces, composeRuns, lib_some h hb, dropLost]
  | @d2 b m b2 m2 h h2 h4 =>
    have f := pairOf_facts h
    have f2 := pairOf_facts h2
    have hlt : ∀ x ∈ [b2, m2, m], x < 0x100000 := by
      have := f2.hb; have := f.hm; have := f2.hm; simp; omega
    constructor
    · intro e b' m' e'
      rw [h] at e'; cases e'
      by_cases hb : b < 0x1000
      · exact hb
      · exfalso
        have e := toComposed_utf8 hlt e
        have hl2 : ∀ x ∈ dropLost false (composePieces libComposite [b2, m2, m]), x ≤ 0x10FFFF := by
          intro x hx
          obtain ⟨p, hp, rfl⟩ := dropLost_mem _ _ x hx
          have := composeRuns_lt [m2, m] (fun x hx => hlt x (by simp at hx ⊢; omega)) b2 false (hlt b2 (by simp)) p hp
          omega
        have e := utf8_inj (by simp; omega) hl2 e
        by_cases hb2 : b2 < 0x1000
        · simp only [composePieces, composeRuns, lib_some h2 hb2, lib_none m hb, dropLost] at e
          simp only [endsHere, Bool.and_self, if_true, List.cons.injEq, and_true] at e
          subst e
          rw [h2] at h
          cases h
          exact hb hb2
        · simp only [composePieces, composeRuns, lib_none m2 hb2] at e
          rw [dropLost_head] at e
          have e := congrArg List.length e
          cases hm : libComposite m2 m with
          | none => simp [hm, dropLost, endsHere] at e
          | some d => simp [hm, dropLost] at e
    · intro hb
      have hb := hb b m h
      obtain ⟨hb2, -⟩ := small_pair h hb h2
      have hm2 : m2 < 0x1D1BC := by have := f2.hm; omega
      have hm1 : m < 0x1D1BC := by have := f.hm; omega
      rw [(C55_exact [b2, m2, m] hlt).1 (noOverrun_low (by simp; omega))]
      simp only [composePieces, composeRuns, lib_some h2 hb2, lib_some h hb, dropLost]
  | d3 h h2 h4 h5 => simp at h3

/-- C102: to_composed(to_decomposed(c)) = c for a code point below U+100000 exactly if it has no canonical decomposition into
two code points or the first of them is below U+1000. -/
theorem C102_there_and_back (c g : Nat) (hc : c < 0x100000) :
    (∃ t, toDecomposed (utf8 [c]) (g + 1) = .ok t ∧ toComposed t = .ok (utf8 [c])) ↔
    ∀ b m, pairOf c = some (b, m) → b < 0x1000 := by
  by_cases h3 : (chainOf c).length ≤ 3
  · rw [← chain_back hc h3, dec_one (by omega) h3]
    constructor
    · rintro ⟨t, e, h⟩; cases e; exact h
    · intro h; exact ⟨_, rfl, h⟩
  · rw [dec_four (by omega) h3]
    constructor
    · rintro ⟨t, e, -⟩; cases e
    · intro h
      exfalso
      have hs := chainOf_spec c
      generalize chainOf c = l at *
      cases hs with
      | d0 _ => simp at h3
      | d1 _ _ => simp at h3
      | d2 _ _ _ => simp at h3
      | @d3 b m b2 m2 b3 m3 h1 h2 h4 h5 =>
        have := (small_pair h1 (h b m h1) h2).2
        rw [h4] at this
        cases this

/-! ### The hypotheses are met -/

example : pairOf 0xE9 = some (0x65, 0x301) ∧ toDecomposed (utf8 [0xE9]) 1 = .ok (utf8 [0x65, 0x301]) ∧
    toComposed (utf8 [0x65, 0x301]) = .ok (utf8 [0xE9]) := by decide +kernel
/-- U+1EAC = U+1EA0 U+0302 comes back as U+1EA0: the circumflex is lost -/
example : pairOf 0x1EAC = some (0x1EA0, 0x302) ∧ toDecomposed (utf8 [0x1EAC]) 1 = .ok (utf8 [0x41, 0x323, 0x302]) ∧
    toComposed (utf8 [0x41, 0x323, 0x302]) = .ok (utf8 [0x1EA0]) := by decide +kernel
/-- the hypotheses of C102_twice_any and C102_count -/
example : toComposed (utf8 [0x41, 0x30A, 0x301, 0x42, 0x63, 0x327]) = .ok (utf8 [0x1FA, 0xE7]) := by decide +kernel
example : toComposed (utf8 [0x41, 0x30A, 0x301, 0x42, 0x43, 0x63, 0x327]) = .ok (utf8 [0x1FA, 0x42, 0x43, 0xE7]) ∧
    countChars (utf8 [0x41, 0x30A, 0x301, 0x42, 0x43, 0x63, 0x327]) = .ok 4 ∧
    countChars (utf8 [0x1FA, 0x42, 0x43, 0xE7]) = .ok 4 := by decide +kernel
/-- a lost character -/
example : toComposed (utf8 [0x41, 0x30A, 0x42]) = .ok (utf8 [0xC5]) ∧ countChars (utf8 [0x41, 0x30A, 0x42]) = .ok 2 ∧
    countChars (utf8 [0xC5]) = .ok 1 := by decide +kernel

end Ystring
