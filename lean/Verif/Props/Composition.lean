import Verif.Proofs.ComposeLoop
import Verif.Props.Decomposition
/-
Property theorems C55 (composition).
-/
namespace Ystring
open Spec

/-- the UTF-8 text of a list of numbers -/
def Spec.utf8 (cs : List Nat) : Str := cs.flatMap rfcEncode

/-! ### The steps on a text -/

/-- no overrun at a pair -/
def stepOk (b m : Nat) : Bool := Nat.blt m 0x300 || Nat.ble (b * 2 ^ 20 + m) 0x1D1BC1D16F

theorem stepOk_iff (b m : Nat) : stepOk b m = true ↔ m < 0x300 ∨ b * 2 ^ 20 + m ≤ 0x1D1BC1D16F := by
  unfold stepOk
  rw [Bool.or_eq_true, Nat.blt_eq, Nat.ble_eq]

/-- no overrun from `cur` on -/
def okFrom : Nat → List Nat → Bool
  | _, [] => true
  | cur, m :: cs => stepOk cur m && okFrom m cs

theorem okFrom_iff (cur : Nat) (cs : List Nat) (h : ∀ c ∈ cs, c < 0x100000) : okFrom cur cs = true ↔ NoOverrun (cur :: cs) := by
  induction cs generalizing cur with
  | nil =>
    simp only [okFrom, true_iff]
    intro p a b q e
    have := congrArg List.length e
    simp at this
    omega
  | cons m cs ih =>
    simp only [okFrom, Bool.and_eq_true, stepOk_iff]
    rw [ih m (fun c hc => h c (by simp [hc]))]
    have hm := h m (by simp)
    constructor
    · rintro ⟨h1, h2⟩ p a b q e
      cases p with
      | nil => simp at e; obtain ⟨rfl, rfl, rfl⟩ := e; omega
      | cons x p =>
        simp only [List.cons_append, List.cons.injEq] at e
        exact h2 p a b q e.2
    · intro hn
      refine ⟨?_, ?_⟩
      · have := hn [] cur m cs rfl; omega
      · intro p a b q e
        exact hn (cur :: p) a b q (by rw [e]; rfl)

theorem composite_facts {b m c : Nat} (h : composite b m = some c) : PairFacts c b m := pair_facts (composite_mem h)

theorem okFrom_composite {b m c : Nat} (hb : b < 0x1000) (h : composite b m = some c) (cs : List Nat)
    (hcs : ∀ c ∈ cs, c < 0x100000) : okFrom c cs = okFrom m cs := by
  cases cs with
  | nil => rfl
  | cons x cs =>
    have f := composite_facts h
    have hs := List.all_eq_true.mp pairs_small _ (composite_mem h)
    simp only [Bool.or_eq_true, Nat.ble_eq, Nat.blt_eq] at hs
    have hx := hcs x (by simp)
    have h1 : stepOk c x = true := by rw [stepOk_iff]; omega
    have h2 : stepOk m x = true := by rw [stepOk_iff]; have := f.hm; omega
    simp only [okFrom, h1, h2]

/-- the lookup, for numbers below U+100000 -/
theorem findComposed_nat (b m : Nat) (hb : b < 0x100000) (hm : m < 0x100000) :
    findComposed (UInt32.ofNat b) (UInt32.ofNat m) =
      if stepOk b m then .ok (UInt32.ofNat ((libComposite b m).getD 0))
      else .error .ub := by
  rw [findComposed_eq _ _ (by rw [toNat_ofNat32 (by omega)]; omega) (by rw [toNat_ofNat32 (by omega)]; omega),
    toNat_ofNat32 (by omega), toNat_ofNat32 (by omega)]
  by_cases h1 : m < 0x300
  · rw [if_pos h1, if_pos (by rw [stepOk_iff]; exact .inl h1)]
    have : libComposite b m = none := by
      unfold libComposite
      split
      · cases hc : composite b m with
        | none => rfl
        | some c => have := (composite_facts hc).hm; omega
      · rfl
    rw [this]; rfl
  · rw [if_neg h1]
    unfold composedByKey
    by_cases h2 : 0x1D1BC1D16F < b * 2 ^ 20 + m
    · rw [if_pos h2, if_neg (by rw [stepOk_iff]; omega)]
    · have hs : stepOk b m = true := by rw [stepOk_iff]; omega
      rw [if_neg h2, if_pos hs]
      obtain ⟨e1, e2⟩ := key_parts b m (by omega)
      rw [e1, e2]
      unfold libComposite
      by_cases h3 : b < 0x1000
      · rw [if_neg (by omega), if_pos h3]
      · rw [if_pos (by omega), if_neg h3]; rfl

theorem ofNat_eq_zero {n : Nat} (h : n < 2 ^ 32) : UInt32.ofNat n = 0 ↔ n = 0 := by
  constructor
  · intro e
    have := congrArg UInt32.toNat e
    rwa [toNat_ofNat32 h] at this
  · rintro rfl; rfl

theorem libComposite_facts {b m c : Nat} (h : libComposite b m = some c) : b < 0x1000 ∧ composite b m = some c := by
  unfold libComposite at h
  split at h
  · exact ⟨by assumption, h⟩
  · cases h

/-- the units of a text -/
def natUnits (cs : List Nat) : List Unit8 := cs.map (fun n => (rfcEncode n, UInt32.ofNat n))

theorem natUnits_spec (cs : List Nat) (h : ∀ c ∈ cs, c ≤ 0x10FFFF) : Units (natUnits cs) ∧ bytesOf (natUnits cs) = utf8 cs := by
  constructor
  · intro x hx
    obtain ⟨c, hc, rfl⟩ := List.mem_map.mp hx
    have := h c hc
    have := rfcEncode_seq (UInt32.ofNat c) (by rw [toNat_ofNat32 (by omega)]; exact this)
    rwa [toNat_ofNat32 (by omega)] at this
  · simp [bytesOf, utf8, natUnits, List.flatMap_map]

theorem uRuns_nat (cs : List Nat) (hcs : ∀ c ∈ cs, c < 0x100000) : ∀ (cur : Nat) (f : Bool), cur < 0x100000 →
    uRuns (UInt32.ofNat cur) f (rfcEncode cur) (natUnits cs) =
      if okFrom cur cs then .ok ((composeRuns libComposite cur f cs).map (fun p => (p.1, rfcEncode p.2)))
      else .error .ub := by
  induction cs with
  | nil => intro cur f _; rfl
  | cons m cs ih =>
    intro cur f hcur
    have hm := hcs m (by simp)
    have ih := ih (fun c hc => hcs c (by simp [hc]))
    show (findComposed (UInt32.ofNat cur) (UInt32.ofNat m) >>= fun d => if d = 0 then
      (uRuns (UInt32.ofNat m) false (rfcEncode m) (natUnits cs) >>= fun ps => .ok ((f, rfcEncode cur) :: ps))
      else uRuns d true (encodeUtf8 d) (natUnits cs)) = _
    rw [findComposed_nat cur m hcur hm]
    by_cases hok : stepOk cur m = true
    case neg =>
      have hf : stepOk cur m = false := by simpa using hok
      have eo : okFrom cur (m :: cs) = false := by simp only [okFrom, hf, Bool.false_and]
      rw [if_neg hok, eo]; rfl
    case pos =>
      have eo : okFrom cur (m :: cs) = okFrom m cs := by simp only [okFrom, hok, Bool.true_and]
      rw [if_pos hok, bind_ok', eo]
      simp only [composeRuns]
      cases hl : libComposite cur m with
      | none =>
        rw [if_pos (by rfl), ih m false hm]
        cases okFrom m cs <;> rfl
      | some c =>
        obtain ⟨hb, hc⟩ := libComposite_facts hl
        have f := composite_facts hc
        have := f.hc
        rw [Option.getD_some, if_neg (by rw [ofNat_eq_zero (by omega)]; omega), encode_ofNat (by omega),
          ih c true (by omega), okFrom_composite hb hc cs (fun c hc => hcs c (by simp [hc]))]

theorem dropLost_map {α β : Type} (f : α → β) (pc : Bool) (ps : List (Bool × α)) :
    dropLost pc (ps.map (fun p => (p.1, f p.2))) = (dropLost pc ps).map f := by
  induction ps generalizing pc with
  | nil => rfl
  | cons p ps ih =>
    obtain ⟨g, c⟩ := p
    cases g with
    | true => simp only [List.map_cons, dropLost, ih]
    | false =>
      have he : endsHere (ps.map (fun p => (p.1, f p.2))) = endsHere ps := by cases ps <;> rfl
      simp only [List.map_cons, dropLost, he, ih]
      split <;> simp

/-! ### C55 -/

/-- C55: the exact result of to_composed on every text below U+100000: the text is composed from left to right with the
pairs whose first code point is below U+1000, and then every copied code point between a composed one and another
composed one or the end of the text is dropped. If two adjacent code points come after the last pair of the table the
behaviour is undefined (a read past the end of the table). -/
theorem C55_exact (cs : List Nat) (h : ∀ c ∈ cs, c < 0x100000) :
    (NoOverrun cs → toComposed (utf8 cs) = .ok (utf8 (dropLost false (composePieces libComposite cs)))) ∧
    (¬ NoOverrun cs → toComposed (utf8 cs) = .error .ub) := by
  cases cs with
  | nil => exact ⟨fun _ => rfl, fun hn => absurd (by intro p a b q e; simp at e) hn⟩
  | cons c cs =>
    have hc := h c (by simp)
    have hcs : ∀ x ∈ cs, x < 0x100000 := fun x hx => h x (by simp [hx])
    obtain ⟨hu, he⟩ := natUnits_spec cs (fun x hx => by have := hcs x hx; omega)
    obtain ⟨hu1, he1⟩ := natUnits_spec [c] (fun x hx => by have := h x (by simp at hx; simp [hx]); omega)
    have hu1 : IsSeq (rfcEncode c) (UInt32.ofNat c) := hu1 (rfcEncode c, UInt32.ofNat c) (by simp [natUnits])
    have e := toComposed_units (rfcEncode c, UInt32.ofNat c) (natUnits cs) [] hu1 hu not_hasSeqPrefix_nil
    simp only [List.append_nil, he] at e
    have e2 : utf8 (c :: cs) = rfcEncode c ++ utf8 cs := by simp [utf8]
    rw [← e2, uRuns_nat cs hcs c false hc] at e
    rw [e, ← okFrom_iff c cs hcs]
    constructor
    · intro hok
      rw [if_pos hok, bind_ok', dropLost_map]
      simp only [tailC, if_true]
      rw [← List.flatMap_def]; rfl
    · intro hok
      rw [if_neg hok]; rfl

/-- nothing is dropped -/
def Spec.NothingLost (cs : List Nat) : Prop :=
  dropLost false (composePieces libComposite cs) = (composePieces libComposite cs).map (·.2)

theorem pairOf_of_mem {c b m : Nat} (h : (c, b, m) ∈ UD_PAIRS) : pairOf c = some (b, m) := by
  have hs := pairwise_of_incr pairs_incr
  rw [List.pairwise_map] at hs
  unfold pairOf
  have : UD_PAIRS.find? (fun p => Nat.beq p.1 c) = some (c, b, m) := by
    generalize UD_PAIRS = l at h hs
    induction l with
    | nil => cases h
    | cons p l ih =>
      rw [List.pairwise_cons] at hs
      rw [List.find?_cons]
      rcases List.mem_cons.mp h with e | h'
      · rw [← e]; simp
      · have := hs.1 _ h'
        have hne : Nat.beq p.1 c = false := by
          cases hb : Nat.beq p.1 c with
          | false => rfl
          | true => rw [Nat.beq_eq] at hb; simp at this; omega
        rw [hne]
        exact ih h' hs.2
  rw [this]; rfl

/-- composing preserves the canonical decomposition -/
theorem composeRuns_canon (comp : Nat → Nat → Option Nat) (hcomp : ∀ b m c, comp b m = some c → composite b m = some c)
    (cs : List Nat) : ∀ (cur : Nat) (f : Bool) (l ds : List Nat), Canon cur l → CanonSeq cs ds →
    CanonSeq ((composeRuns comp cur f cs).map (·.2)) (l ++ ds) := by
  induction cs with
  | nil =>
    intro cur f l ds h h2
    cases h2
    exact .cons h .nil
  | cons m cs ih =>
    intro cur f l ds h h2
    cases h2 with
    | cons hm h2 =>
      simp only [composeRuns]
      cases hc : comp cur m with
      | none => exact .cons h (ih m false _ _ hm h2)
      | some c =>
        rw [← List.append_assoc]
        exact ih c true _ _ (.pair (pairOf_of_mem (composite_mem (hcomp _ _ _ hc))) h hm) h2

theorem canonSeq_total (cs : List Nat) : ∃ ds, CanonSeq cs ds := by
  induction cs with
  | nil => exact ⟨_, .nil⟩
  | cons c cs ih =>
    obtain ⟨ds, h⟩ := ih
    obtain ⟨l, hl⟩ := canon_total c
    exact ⟨_, .cons hl h⟩

/-- C55 (partial): if nothing is dropped and there is no overrun, the result is canonically equivalent to the text: both
have the same full canonical decomposition. Missing: the texts where characters are lost (C55_false_lost), overruns
(C55_false_ub), and plane 16 (C55_false_plane16). -/
theorem C55_equivalent_partial (cs : List Nat) (h : ∀ c ∈ cs, c < 0x100000) (hn : NoOverrun cs) (hl : NothingLost cs) :
    ∃ rs ds, toComposed (utf8 cs) = .ok (utf8 rs) ∧ CanonSeq cs ds ∧ CanonSeq rs ds := by
  refine ⟨(composePieces libComposite cs).map (·.2), ?_⟩
  have e := (C55_exact cs h).1 hn
  unfold NothingLost at hl
  rw [hl] at e
  obtain ⟨ds, hd⟩ := canonSeq_total cs
  refine ⟨ds, e, hd, ?_⟩
  cases hd with
  | nil => exact .nil
  | cons hc hd => exact composeRuns_canon _ (fun b m c hh => (libComposite_facts hh).2) _ _ _ _ _ hc hd

/-- C55 (partial): every adjacent canonical pair is composed, from left to right, if all code points involved are below
U+1000 and nothing is dropped. -/
theorem C55_composes_partial (cs : List Nat) (h : ∀ c ∈ cs, c < 0x1000)
    (h2 : ∀ p ∈ composePieces libComposite cs, p.2 < 0x1000) (hl : NothingLost cs) :
    toComposed (utf8 cs) = .ok (utf8 (composeText cs)) := by
  have hn : NoOverrun cs := by
    intro p a b q e
    have := h a (by rw [e]; simp)
    omega
  have e := (C55_exact cs (fun c hc => by have := h c hc; omega)).1 hn
  unfold NothingLost at hl
  rw [hl] at e
  rw [e]
  congr 2
  unfold composeText
  congr 1
  have aux : ∀ (cs : List Nat) (cur : Nat) (f : Bool), (∀ p ∈ composeRuns libComposite cur f cs, p.2 < 0x1000) →
      composeRuns libComposite cur f cs = composeRuns composite cur f cs := by
    intro cs
    induction cs with
    | nil => intros; rfl
    | cons m cs ih =>
      intro cur f hh
      have hcur : cur < 0x1000 := by
        apply Nat.lt_of_not_le
        intro hge
        have : libComposite cur m = none := by unfold libComposite; rw [if_neg (by omega)]
        simp only [composeRuns, this] at hh
        have := hh (f, cur) (by simp)
        simp at this
        omega
      have e : libComposite cur m = composite cur m := by unfold libComposite; rw [if_pos hcur]
      simp only [composeRuns, e] at hh ⊢
      cases hc : composite cur m with
      | none =>
        rw [hc] at hh
        simp only at hh ⊢
        rw [ih m false (fun p hp => hh p (by simp [hp]))]
      | some c =>
        rw [hc] at hh
        exact ih c true hh
  cases cs with
  | nil => rfl
  | cons c cs => exact aux cs c false h2

/-- C55 (partial): text without any code point from U+0300 on is returned unchanged. -/
theorem C55_identity_partial (cs : List Nat) (h : ∀ c ∈ cs, c < 0x300) : toComposed (utf8 cs) = .ok (utf8 cs) := by
  have aux : ∀ (cs : List Nat) (cur : Nat), (∀ c ∈ cs, c < 0x300) → composeRuns libComposite cur false cs = (cur :: cs).map (fun c => (false, c)) := by
    intro cs
    induction cs with
    | nil => intros; rfl
    | cons m cs ih =>
      intro cur hh
      have : libComposite cur m = none := by
        cases hc : libComposite cur m with
        | none => rfl
        | some c =>
          have := (composite_facts (libComposite_facts hc).2).hm
          have := hh m (by simp)
          omega
      simp only [composeRuns, this]
      rw [ih m (fun c hc => hh c (by simp [hc]))]
      rfl
  have aux2 : ∀ cs : List Nat, dropLost false (cs.map (fun c => (false, c))) = cs := by
    intro cs
    induction cs with
    | nil => rfl
    | cons c cs ih => simp only [List.map_cons, dropLost, Bool.false_and, ih]; rfl
  have hn : NoOverrun cs := by
    intro p a b q e
    have := h b (by rw [e]; simp)
    omega
  have e := (C55_exact cs (fun c hc => by have := h c hc; omega)).1 hn
  rw [e]
  cases cs with
  | nil => rfl
  | cons c cs => simp only [composePieces]; rw [aux cs c (fun x hx => h x (by simp [hx])), aux2]

/-- C55: characters are lost: whenever `b`, `m` is a pair the library composes and `x` is a character below U+0300,
`b m x` becomes the composite alone. -/
theorem C55_false_lost (b m c x : Nat) (h : libComposite b m = some c) (hx : x < 0x300) :
    toComposed (utf8 [b, m, x]) = .ok (utf8 [c]) := by
  obtain ⟨hb, hc⟩ := libComposite_facts h
  have f := composite_facts hc
  have := f.hm
  have hn : NoOverrun [b, m, x] := by
    rw [← okFrom_iff b [m, x] (by simp; omega)]
    simp only [okFrom, Bool.and_true, Bool.and_eq_true, stepOk_iff]
    omega
  have e := (C55_exact [b, m, x] (by simp; omega)).1 hn
  rw [e]
  have hcx : libComposite c x = none := by
    cases hc' : libComposite c x with
    | none => rfl
    | some d => have := (composite_facts (libComposite_facts hc').2).hm; omega
  simp only [composePieces, composeRuns, h, hcx, dropLost, endsHere]
  rfl

/-- C55: undefined behaviour: every character above U+1D1BC that is followed by one from U+0300 on (below U+100000), for
example an emoji followed by U+FE0F. -/
theorem C55_false_ub (a b : Nat) (ha : 0x1D1BC < a) (ha2 : a < 0x100000) (hb : 0x300 ≤ b) (hb2 : b < 0x100000) :
    toComposed (utf8 [a, b]) = .error .ub := by
  apply (C55_exact [a, b] (by simp; omega)).2
  intro hn
  have := hn [] a b [] rfl
  omega

/-- C55: pairs whose first code point is U+1000 or above are never composed, for example U+304B U+3099 (U+304C). -/
theorem C55_false_kana : composeText [0x304B, 0x3099] = [0x304C] ∧
    toComposed (utf8 [0x304B, 0x3099]) = .ok (utf8 [0x304B, 0x3099]) := by decide +kernel

/-- C55: a plane 16 character is mistaken for a combining mark: A followed by U+100308 becomes U+00C4. -/
theorem C55_false_plane16 : toComposed (utf8 [0x41, 0x100308]) = .ok (utf8 [0xC4]) := by decide +kernel

/-- C55: the full claim fails. -/
theorem C55_false : ¬ (∀ cs : List Nat, (∀ c ∈ cs, IsScalar c) → ∃ rs ds,
    toComposed (utf8 cs) = .ok (utf8 rs) ∧ CanonSeq cs ds ∧ CanonSeq rs ds) := by
  intro h
  obtain ⟨rs, ds, h1, _⟩ := h [0x1F600, 0xFE0F] (by simp [IsScalar])
  rw [C55_false_ub 0x1F600 0xFE0F (by omega) (by omega) (by omega) (by omega)] at h1
  cases h1

/-! ### All byte strings -/

theorem findComposed_cases (ch mark : Char32) : (∃ d : Char32, findComposed ch mark = .ok d ∧ d.toNat < 2 ^ 20) ∨
    findComposed ch mark = .error .ub := by
  unfold findComposed findComposedIn
  split
  · exact .inl ⟨0, rfl, by decide⟩
  · simp only
    split
    · exact .inr rfl
    · split
      · exact .inl ⟨0, rfl, by decide⟩
      · refine .inl ⟨_, rfl, ?_⟩
        generalize TO_COMPOSED.getD _ 0 = x
        have := Nat.mod_lt x (Nat.two_pow_pos 20)
        rw [toNat_ofNat32 (by omega)]
        exact this

theorem uRuns_cases (us : List Unit8) (h : Units us) : ∀ (cur : Char32) (f : Bool) (w : Str), Valid w →
    uRuns cur f w us = .error .ub ∨ ∃ ps, uRuns cur f w us = .ok ps ∧ ∀ p ∈ ps, Valid p.2 := by
  induction us with
  | nil => intro cur f w hw; exact .inr ⟨_, rfl, by simpa using hw⟩
  | cons u us ih =>
    intro cur f w hw
    rw [Units_cons] at h
    simp only [uRuns]
    rcases findComposed_cases cur u.2 with ⟨d, hd, hd2⟩ | hd
    · rw [hd, bind_ok']
      by_cases h0 : d = 0
      · rw [if_pos h0]
        rcases ih h.2 u.2 false u.1 ⟨_, h.1.decodes⟩ with e | ⟨ps, e, hp⟩
        · rw [e]; exact .inl rfl
        · rw [e, bind_ok']; exact .inr ⟨_, rfl, by simpa [hw] using hp⟩
      · rw [if_neg h0]
        exact ih h.2 d true _ ⟨_, (encodeUtf8_seq d (by omega)).decodes⟩
    · rw [hd]; exact .inl rfl

theorem valid_flatten {ps : List Str} (h : ∀ p ∈ ps, Valid p) : Valid ps.flatten := by
  induction ps with
  | nil => exact ⟨_, .nil⟩
  | cons p ps ih =>
    obtain ⟨cs, h1⟩ := h p (by simp)
    obtain ⟨ds, h2⟩ := ih (fun q hq => h q (by simp [hq]))
    exact ⟨_, h1.append h2⟩

theorem dropLost_mem {α : Type} (pc : Bool) (ps : List (Bool × α)) : ∀ x ∈ dropLost pc ps, ∃ p ∈ ps, p.2 = x := by
  induction ps generalizing pc with
  | nil => intro x hx; cases hx
  | cons p ps ih =>
    obtain ⟨g, c⟩ := p
    intro x hx
    have key : ∀ pc, x ∈ dropLost pc ps → ∃ p ∈ (g, c) :: ps, p.2 = x := by
      intro pc hh
      obtain ⟨p, hp, e⟩ := ih pc x hh
      exact ⟨p, by simp [hp], e⟩
    cases g with
    | true =>
      simp only [dropLost, List.mem_cons] at hx
      rcases hx with rfl | hx
      · exact ⟨(true, x), by simp, rfl⟩
      · exact key _ hx
    | false =>
      simp only [dropLost] at hx
      split at hx
      · exact key _ hx
      · rcases List.mem_cons.mp hx with rfl | hx
        · exact ⟨(false, x), by simp, rfl⟩
        · exact key _ hx

/-- C55: for every byte string to_composed returns a valid string, throws YstringException (only for malformed input)
or reads past its table; it always terminates. -/
theorem C55_outcomes (s : Str) :
    (∃ t, toComposed s = .ok t ∧ Valid s ∧ Valid t) ∨ (toComposed s = .error .ystring ∧ ¬ Valid s) ∨
    toComposed s = .error .ub := by
  obtain ⟨us, t, h, rfl, ht⟩ := splitUnits s
  cases us with
  | nil =>
    by_cases h0 : t = []
    · subst h0; exact .inl ⟨[], rfl, ⟨_, .nil⟩, ⟨_, .nil⟩⟩
    · refine .inr (.inl ⟨toComposed_bad t ht h0, ?_⟩)
      intro hv
      exact h0 ((valid_bad_tail h ht).mp hv)
  | cons u us =>
    have h' := Units_cons.mp h
    have e := toComposed_units u us t h'.1 h'.2 ht
    rw [bytesOf_cons, List.append_assoc, e]
    rcases uRuns_cases us h'.2 u.2 false u.1 ⟨_, h'.1.decodes⟩ with e | ⟨ps, e, hp⟩
    · rw [e]; exact .inr (.inr rfl)
    · rw [e, bind_ok']
      unfold tailC
      have hvt := valid_bad_tail h ht
      rw [bytesOf_cons, List.append_assoc] at hvt
      rw [hvt]
      by_cases h0 : t = []
      · rw [if_pos h0]
        refine .inl ⟨_, rfl, h0, valid_flatten ?_⟩
        intro x hx
        obtain ⟨p, hp', rfl⟩ := dropLost_mem _ _ x hx
        exact hp p hp'
      · rw [if_neg h0]; exact .inr (.inl ⟨rfl, h0⟩)

/- concrete cases -/
example : composeText [0x41, 0x308, 0x62, 0x63] = [0xC4, 0x62, 0x63] := by decide +kernel
example : toComposed (utf8 [0x41, 0x308, 0x62, 0x63]) = .ok (utf8 (composeText [0x41, 0x308, 0x62, 0x63])) :=
  C55_composes_partial [0x41, 0x308, 0x62, 0x63] (by decide) (by decide +kernel) (by unfold NothingLost; decide +kernel)
example : libComposite 0x41 0x308 = some 0xC4 := by decide +kernel
example : NoOverrun [0x41, 0x308, 0x62, 0x63] ∧ NothingLost [0x41, 0x308, 0x62, 0x63] :=
  ⟨(okFrom_iff _ _ (by decide)).mp (by decide +kernel), by unfold NothingLost; decide +kernel⟩

end Ystring
