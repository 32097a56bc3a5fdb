import Verif.Props.Concat
import Verif.Props.Case
import Verif.Props.CaseInsensitive
/-
Property theorems C75 (case conversion and case-insensitive comparison) and C76 (sizes of results).
-/
namespace Ystring
open Spec

/-- The code points whose lower case is not mapped back: İ, ϴ, ẞ, Ω (ohm), K (kelvin), Å (angstrom). -/
def LowerExceptions : List Nat := [0x130, 0x3F4, 0x1E9E, 0x2126, 0x212A, 0x212B]

theorem upper_lower_tbl1 : (UD_LOWER.take 370).all (fun p => Nat.beq (upN p.2) (upN p.1) || LowerExceptions.elem p.1) = true := by decide +kernel
theorem upper_lower_tbl2 : ((UD_LOWER.drop 370).take 370).all (fun p => Nat.beq (upN p.2) (upN p.1) || LowerExceptions.elem p.1) = true := by decide +kernel
theorem upper_lower_tbl3 : (((UD_LOWER.drop 370).drop 370).take 370).all (fun p => Nat.beq (upN p.2) (upN p.1) || LowerExceptions.elem p.1) = true := by decide +kernel
theorem upper_lower_tbl4 : (((UD_LOWER.drop 370).drop 370).drop 370).all (fun p => Nat.beq (upN p.2) (upN p.1) || LowerExceptions.elem p.1) = true := by decide +kernel
theorem upper_lower_tbl : UD_LOWER.all (fun p => Nat.beq (upN p.2) (upN p.1) || LowerExceptions.elem p.1) = true :=
  all_parts _ _ 370 upper_lower_tbl1 upper_lower_tbl2 upper_lower_tbl3 upper_lower_tbl4
theorem upper_lower_exc : LowerExceptions.all (fun c => !Nat.beq (upN (lowN c)) (upN c)) = true := by decide +kernel
theorem upper_title_tbl1 : (UD_TITLE.take 370).all (fun p => Nat.beq (upN p.2) (upN p.1)) = true := by decide +kernel
theorem upper_title_tbl2 : ((UD_TITLE.drop 370).take 370).all (fun p => Nat.beq (upN p.2) (upN p.1)) = true := by decide +kernel
theorem upper_title_tbl3 : (((UD_TITLE.drop 370).drop 370).take 370).all (fun p => Nat.beq (upN p.2) (upN p.1)) = true := by decide +kernel
theorem upper_title_tbl4 : (((UD_TITLE.drop 370).drop 370).drop 370).all (fun p => Nat.beq (upN p.2) (upN p.1)) = true := by decide +kernel
theorem upper_title_tbl : UD_TITLE.all (fun p => Nat.beq (upN p.2) (upN p.1)) = true :=
  all_parts _ _ 370 upper_title_tbl1 upper_title_tbl2 upper_title_tbl3 upper_title_tbl4

theorem simpleUpper_simpleLower (c : Nat) : simpleUpper (simpleLower c) = simpleUpper c ↔ c ∉ LowerExceptions := by
  constructor
  · intro h hm
    have := List.all_eq_true.mp upper_lower_exc c hm
    rw [upN_eq, upN_eq, lowN_eq] at h
    rw [h, Nat.beq_refl] at this
    exact absurd this (by decide)
  · refine lookup_prop UD_LOWER (fun c v => c ∉ LowerExceptions → simpleUpper v = simpleUpper c) ?_ c (fun _ => rfl)
    intro p hp hn
    have := List.all_eq_true.mp upper_lower_tbl p hp
    rw [Bool.or_eq_true] at this
    rcases this with h | h
    · rw [upN_eq, upN_eq]; exact Nat.eq_of_beq_eq_true h
    · exact absurd (List.elem_iff.mp h) hn

theorem simpleUpper_simpleTitle (c : Nat) : simpleUpper (simpleTitle c) = simpleUpper c := by
  refine lookup_prop UD_TITLE (fun c v => simpleUpper v = simpleUpper c) ?_ c rfl
  intro p hp
  have := List.all_eq_true.mp upper_title_tbl p hp
  rw [upN_eq, upN_eq]; exact Nat.eq_of_beq_eq_true this

theorem lower_ss_tbl : UD_LOWER.all (fun p => !Nat.beq p.2 0xDF || Nat.beq p.1 0x1E9E) = true := by decide +kernel

theorem simpleLower_ss {c : Nat} (hc : c ∉ LowerExceptions) : simpleLower c = 0xDF ↔ c = 0xDF := by
  constructor
  · refine lookup_prop UD_LOWER (fun c v => c ∉ LowerExceptions → v = 0xDF → c = 0xDF) ?_ c (fun _ h => h) hc
    intro p hp hn e
    have := List.all_eq_true.mp lower_ss_tbl p hp
    rw [e] at this
    have h1 := Nat.eq_of_beq_eq_true (show Nat.beq p.1 0x1E9E = true by simpa using this)
    exact absurd (by rw [h1]; decide) hn
  · rintro rfl
    rw [lowN_eq]; decide +kernel

/-- The upper case of the lower case of an exception begins with another code point than its upper case. -/
theorem upper_lower_head (c : Char32) (hc : c.toNat ∈ LowerExceptions) :
    ∃ x xs y ys, upperChars (toLowerChar c) = x :: xs ∧ upperChars c = y :: ys ∧ x ≠ y := by
  have h : ∀ n ∈ LowerExceptions, ∃ x xs y ys, upperChars (toLowerChar (UInt32.ofNat n)) = x :: xs ∧
      upperChars (UInt32.ofNat n) = y :: ys ∧ x ≠ y := by
    intro n hn
    have : ∀ n ∈ LowerExceptions, (upperChars (toLowerChar (UInt32.ofNat n))).head? ≠ none ∧
      (upperChars (UInt32.ofNat n)).head? ≠ none ∧
      (upperChars (toLowerChar (UInt32.ofNat n))).head? ≠ (upperChars (UInt32.ofNat n)).head? := by decide +kernel
    obtain ⟨h1, h2, h3⟩ := this n hn
    generalize upperChars (toLowerChar (UInt32.ofNat n)) = a at *
    generalize upperChars (UInt32.ofNat n) = b at *
    cases a with
    | nil => simp at h1
    | cons x xs =>
      cases b with
      | nil => simp at h2
      | cons y ys => exact ⟨x, xs, y, ys, rfl, rfl, by simpa using h3⟩
  have := h _ hc
  rwa [UInt32.ofNat_toNat] at this

/-- C75: a string is case-insensitively equal to its upper case version iff it contains no ß (which becomes SS). -/
theorem C75_upper (s u : Str) (cs : List Char32) (hs : toUtf32 s = .ok cs) (hu : toUpper s = .ok u) :
    CI.equal s u = .ok (decide (0xDF ∉ cs)) := by
  obtain ⟨cs', h1, h2, rfl⟩ := conv_ok C53_to_upper hu
  have := (((C09_to_utf32 _).1 _).mp hs).unique h1
  subst this
  rw [CI.C43_equal h1 (upperText_decodes cs h2).1]
  congr 1
  rw [decide_eq_decide]
  have hlen : ∀ cs : List Char32, cs.length ≤ (cs.flatMap upperChars).length ∧ (0xDF ∈ cs → cs.length < (cs.flatMap upperChars).length) := by
    intro cs
    induction cs with
    | nil => simp
    | cons c cs ih =>
      rw [List.flatMap_cons, List.length_append, List.length_cons]
      have h1 : 1 ≤ (upperChars c).length ∧ (c = 0xDF → 2 ≤ (upperChars c).length) := by
        unfold upperChars
        split
        · simp
        · rename_i h
          exact ⟨by simp, fun e => absurd (by rw [e]; rfl) h⟩
      refine ⟨by omega, fun h => ?_⟩
      rcases List.mem_cons.mp h with e | h
      · have := h1.2 e.symm; omega
      · have := ih.2 h; omega
  constructor
  · intro e hm
    have := congrArg List.length e
    simp only [fold, List.length_map] at this
    have := (hlen cs).2 hm
    omega
  · intro hn
    clear hs hu h1 h2 hlen
    induction cs with
    | nil => rfl
    | cons c cs ih =>
      have hc : c ≠ 0xDF := fun e => hn (by rw [e]; simp)
      have := ih (fun h => hn (List.mem_cons_of_mem _ h))
      unfold fold at this ⊢
      rw [List.flatMap_cons, List.map_append, List.map_cons, this]
      unfold upperChars
      rw [if_neg ((ne_DF c).mp hc)]
      simp [C52_to_upper, simpleUpper_idem]

/-- C75: a string is case-insensitively equal to its lower case version iff it contains none of the six code points
`LowerExceptions`. -/
theorem C75_lower (s l : Str) (cs : List Char32) (hs : toUtf32 s = .ok cs) (hl : toLower s = .ok l) :
    CI.equal s l = .ok (decide (∀ c ∈ cs, c.toNat ∉ LowerExceptions)) := by
  obtain ⟨cs', h1, h2, rfl⟩ := conv_ok C53_to_lower hl
  have := (((C09_to_utf32 _).1 _).mp hs).unique h1
  subst this
  rw [CI.C43_equal h1 (lowerText_decodes cs h2).1]
  congr 1
  rw [decide_eq_decide]
  clear hs hl h1 h2
  unfold fold
  induction cs with
  | nil => simp
  | cons c cs ih =>
    simp only [List.map_cons, List.cons.injEq, List.forall_mem_cons, ih, C52_to_lower, ← simpleUpper_simpleLower]
    exact and_congr_left' eq_comm

/-- C75: a string without ß and these six code points is case-insensitively equal to its title case version. -/
theorem C75_title (s t : Str) (cs : List Char32) (hs : toUtf32 s = .ok cs) (ht : toTitle s = .ok t)
    (h : ∀ c ∈ cs, c ≠ 0xDF ∧ c.toNat ∉ LowerExceptions) : CI.equal s t = .ok true := by
  obtain ⟨cs', h1, h2, rfl⟩ := conv_ok C53_to_title ht
  have := (((C09_to_utf32 _).1 _).mp hs).unique h1
  subst this
  have key : ∀ pre, ∃ ds, Decodes (titleText isLetter pre cs) ds ∧ fold ds = fold cs := by
    clear hs ht h1
    induction cs with
    | nil => intro pre; exact ⟨[], .nil, rfl⟩
    | cons c cs ih =>
      intro pre
      have ih := ih (fun d hd => h d (List.mem_cons_of_mem _ hd)) (fun d hd => h2 d (List.mem_cons_of_mem _ hd))
      obtain ⟨hc1, hc2⟩ := h c List.mem_cons_self
      have hcu := h2 c List.mem_cons_self
      have step : ∀ d : Char32, d.toNat ≤ 0x10FFFF → simpleUpper d.toNat = simpleUpper c.toNat → ∀ pre',
          ∃ ds, Decodes (rfcEncode d.toNat ++ titleText isLetter pre' cs) ds ∧ fold ds = fold (c :: cs) := by
        intro d hd he pre'
        obtain ⟨ds, h3, h4⟩ := ih pre'
        refine ⟨d :: ds, .cons (rfcEncode_seq d hd) h3, ?_⟩
        unfold fold at h4 ⊢
        rw [List.map_cons, List.map_cons, h4, he]
      unfold titleText
      split
      · split
        · rw [← C52_to_lower]
          exact step _ ((C52_range c).1.mpr hcu) (by rw [C52_to_lower]; exact (simpleUpper_simpleLower _).mpr hc2) true
        · rw [if_neg ((ne_DF c).mp hc1), ← C52_to_title]
          exact step _ ((C52_range c).2.2.mpr hcu) (by rw [C52_to_title, simpleUpper_simpleTitle]) true
      · exact step c hcu rfl false
  obtain ⟨ds, h3, h4⟩ := key false
  rw [CI.C43_equal h1 h3, h4]
  simp

/-- C75: strings with the same upper case version are case-insensitively equal if neither contains ß; strings with the
same lower case version are if neither contains one of the six code points. -/
theorem C75_same (s t r : Str) (cs ds : List Char32) (hs : toUtf32 s = .ok cs) (ht : toUtf32 t = .ok ds) :
    (toUpper s = .ok r → toUpper t = .ok r → 0xDF ∉ cs → 0xDF ∉ ds → CI.equal s t = .ok true) ∧
    (toLower s = .ok r → toLower t = .ok r → (∀ c ∈ cs ++ ds, c.toNat ∉ LowerExceptions) → CI.equal s t = .ok true) := by
  have hs' : Valid s := ⟨_, ((C09_to_utf32 _).1 _).mp hs⟩
  have ht' : Valid t := ⟨_, ((C09_to_utf32 _).1 _).mp ht⟩
  constructor
  · intro h1 h2 h3 h4
    have hr : Valid r := (C53_valid s r (.inr (.inl h1))).1
    have e1 := C75_upper s r cs hs h1
    have e2 := C75_upper t r ds ht h2
    rw [(CI.C43_equivalence ht' hr hs').2.1] at e2
    exact (CI.C43_equivalence hs' hr ht').2.2 (by simpa [h3] using e1) (by simpa [h4] using e2)
  · intro h1 h2 h3
    have hr : Valid r := (C53_valid s r (.inl h1)).1
    have e1 := C75_lower s r cs hs h1
    have e2 := C75_lower t r ds ht h2
    rw [(CI.C43_equivalence ht' hr hs').2.1] at e2
    rw [decide_eq_true (fun c hc => h3 c (List.mem_append_left _ hc))] at e1
    rw [decide_eq_true (fun c hc => h3 c (List.mem_append_right _ hc))] at e2
    exact (CI.C43_equivalence hs' hr ht').2.2 e1 e2

/-- C75: upper case of lower case is upper case, unless the string contains one of the six code points. -/
theorem C75_upper_lower (s u l u' : Str) (cs : List Char32) (hs : toUtf32 s = .ok cs) (hu : toUpper s = .ok u)
    (hl : toLower s = .ok l) (hu' : toUpper l = .ok u') : u' = u ↔ ∀ c ∈ cs, c.toNat ∉ LowerExceptions := by
  obtain ⟨_, h1, h2, rfl⟩ := conv_ok C53_to_lower hl
  have := (((C09_to_utf32 _).1 _).mp hs).unique h1
  subst this
  obtain ⟨h3, h4⟩ := lowerText_decodes cs h2
  rw [(C53_to_upper _).1 _ h3 h4] at hu'
  rw [(C53_to_upper _).1 _ h1 h2] at hu
  cases hu; cases hu'
  have h5 := upperText_decodes cs h2
  have h6 := upperText_decodes _ h4
  have eqv : upperText (cs.map toLowerChar) = upperText cs ↔ (cs.map toLowerChar).flatMap upperChars = cs.flatMap upperChars := by
    constructor
    · intro e
      exact (e ▸ h6.1).unique h5.1
    · intro e
      have g : ∀ cs, upperText cs = (cs.flatMap upperChars).flatMap (fun d => rfcEncode d.toNat) := by
        intro cs; rw [upperText_eq, List.flatMap_assoc]
      rw [g, g, e]
  rw [eqv]
  clear hs hl h1 h2 h3 h4 h5 h6 eqv
  have low : ∀ c : Char32, c.toNat ∉ LowerExceptions → upperChars (toLowerChar c) = upperChars c := by
    intro c hc
    have h := (simpleUpper_simpleLower c.toNat).mpr hc
    have e : (toLowerChar c).toNat = 0xDF ↔ c.toNat = 0xDF := by
      rw [C52_to_lower]; exact simpleLower_ss hc
    unfold upperChars
    by_cases h0 : c.toNat = 0xDF
    · rw [if_pos h0, if_pos (e.mpr h0)]
    · rw [if_neg h0, if_neg (fun x => h0 (e.mp x))]
      congr 1
      apply UInt32.toNat_inj.mp
      rw [C52_to_upper, C52_to_lower, C52_to_upper, h]
  induction cs with
  | nil => simp
  | cons c cs ih =>
    rw [List.map_cons, List.flatMap_cons, List.flatMap_cons, List.forall_mem_cons]
    by_cases hc : c.toNat ∈ LowerExceptions
    · refine ⟨fun e => ?_, fun h => absurd hc h.1⟩
      exfalso
      obtain ⟨x, xs, y, ys, e1, e2, hne⟩ := upper_lower_head c hc
      rw [e1, e2] at e
      injection e with e _
      exact hne e
    · rw [low c hc, List.append_cancel_left_eq]
      exact ih.trans ⟨fun h => ⟨hc, h⟩, fun h => h.2⟩

example : toUtf32 [0xE2, 0x84, 0xAA] = .ok [0x212A] ∧ toUpper [0xE2, 0x84, 0xAA] = .ok [0xE2, 0x84, 0xAA] ∧
    toLower [0xE2, 0x84, 0xAA] = .ok [0x6B] ∧ toUpper [0x6B] = .ok [0x4B] ∧ CI.equal [0xE2, 0x84, 0xAA] [0x6B] = .ok false := by
  decide +kernel

/-! ### C76 sizes -/

theorem seq_size {u : Str} {c : Char32} (h : IsSeq u c) : (rfcEncode c.toNat).length ≤ u.length ∧ u.length ≤ 4 := by
  unfold rfcEncode
  cases h <;> (refine ⟨?_, by simp⟩; repeat' split) <;> simp_all [IsCont] <;> omega

/-- number of bytes of the encoding, for evaluation -/
def encSize (c : Nat) : Nat := if Nat.blt c 0x80 then 1 else if Nat.blt c 0x800 then 2 else if Nat.blt c 0x10000 then 3 else 4

theorem encSize_eq (c : Nat) : (rfcEncode c).length = encSize c := by
  unfold rfcEncode encSize
  simp only [Nat.blt_eq]
  repeat' split
  all_goals rfl

theorem size_tbls : UD_UPPER.all (fun p => Nat.ble (2 * encSize p.2) (3 * encSize p.1)) = true ∧
    UD_LOWER.all (fun p => Nat.ble (2 * encSize p.2) (3 * encSize p.1)) = true ∧
    UD_TITLE.all (fun p => Nat.ble (2 * encSize p.2) (3 * encSize p.1)) = true := by decide +kernel

theorem lookup_size {l : List (Nat × Nat)} (h : l.all (fun p => Nat.ble (2 * encSize p.2) (3 * encSize p.1)) = true) (c : Nat) :
    2 * (rfcEncode (lookup l c)).length ≤ 3 * (rfcEncode c).length := by
  refine lookup_prop l (fun c v => 2 * (rfcEncode v).length ≤ 3 * (rfcEncode c).length) ?_ c (by omega)
  intro p hp
  rw [encSize_eq, encSize_eq]
  exact Nat.le_of_ble_eq_true (List.all_eq_true.mp h p hp)

/-- C76: decoding and encoding: a code point takes one to four bytes. -/
theorem C76_utf32 (s : Str) (cs : List Char32) :
    (toUtf32 s = .ok cs → cs.length ≤ s.length ∧ s.length ≤ 4 * cs.length) ∧
    (fromUtf32 cs).length ≤ 4 * cs.length ∧ ((∀ c ∈ cs, c.toNat ≤ 0x10FFFF) → cs.length ≤ (fromUtf32 cs).length) := by
  have key : ∀ s cs, Decodes s cs → cs.length ≤ s.length ∧ s.length ≤ 4 * cs.length := by
    intro s cs h
    induction h with
    | nil => simp
    | cons hu hs ih =>
      have := hu.length_pos
      have := hu.length_le
      simp only [List.length_cons, List.length_append]
      omega
  have hu := C10_to_from_utf32 cs
  have h1 := key _ _ (((C09_to_utf32 _).1 _).mp hu)
  refine ⟨fun h => key s cs (((C09_to_utf32 _).1 _).mp h), ?_, fun h => ?_⟩
  · have := List.length_filter_le (fun c : Char32 => decide (c.toNat ≤ 0x10FFFF)) cs
    omega
  · rw [List.filter_eq_self.mpr (by simpa using h)] at h1
    exact h1.1

/-- C76: case conversion makes a string at most half as long again. -/
theorem C76_case (s r : Str) (h : toLower s = .ok r ∨ toUpper s = .ok r ∨ toTitle s = .ok r) : 2 * r.length ≤ 3 * s.length := by
  have key : ∀ (g : Char32 → Str), (∀ c, 2 * (g c).length ≤ 3 * (rfcEncode c.toNat).length) → ∀ s cs, Decodes s cs →
      2 * (cs.flatMap g).length ≤ 3 * s.length := by
    intro g hg s cs hd
    induction hd with
    | nil => simp
    | @cons u s c cs hu hs ih =>
      have := hg c
      have := (seq_size hu).1
      rw [List.flatMap_cons, List.length_append, List.length_append]
      omega
  have ss : ∀ c : Char32, c.toNat = 0xDF → (rfcEncode c.toNat).length = 2 := by intro c h; rw [h]; decide
  rcases h with h | h | h
  · obtain ⟨cs, h1, _, rfl⟩ := conv_ok C53_to_lower h
    exact key _ (fun c => lookup_size size_tbls.2.1 _) s cs h1
  · obtain ⟨cs, h1, _, rfl⟩ := conv_ok C53_to_upper h
    refine key _ (fun c => ?_) s cs h1
    split
    · rename_i e
      have := ss c e
      simp; omega
    · exact lookup_size size_tbls.1 _
  · obtain ⟨cs, h1, h2, rfl⟩ := conv_ok C53_to_title h
    clear h h2
    generalize false = pre
    induction h1 generalizing pre with
    | nil => simp [titleText]
    | @cons u s c cs hu hs ih =>
      have := (seq_size hu).1
      unfold titleText
      rw [List.length_append]
      split
      · have := ih true
        rw [List.length_append]
        have : 2 * (if pre = true then rfcEncode (simpleLower c.toNat)
            else if c.toNat = 0xDF then [0x53, 0x73] else rfcEncode (simpleTitle c.toNat)).length ≤ 3 * (rfcEncode c.toNat).length := by
          split
          · exact lookup_size size_tbls.2.1 _
          · split
            · rename_i e
              have := ss c e
              simp; omega
            · exact lookup_size size_tbls.2.2 _
        omega
      · have := ih false
        rw [List.length_append]
        omega

/-- C76: escaping: at most six bytes for each byte, and never shorter. -/
theorem C76_escape (s : Str) (h : Fits s) : ∃ r, escapeJson s = .ok r ∧ s.length ≤ r.length ∧ r.length ≤ 6 * s.length := by
  refine ⟨_, C56_exact s h, ?_⟩
  have hb : ∀ b, 1 ≤ (jsonByte b).length ∧ (jsonByte b).length ≤ 6 := by
    intro b
    unfold jsonByte
    repeat' split
    all_goals simp
  unfold jsonEscaped
  clear h
  induction s with
  | nil => simp
  | cons b s ih =>
    have := hb b
    rw [List.flatMap_cons, List.length_append, List.length_cons]
    omega

/-- The bounds are reached. -/
example : toUpper [0xCA, 0x9E] = .ok [0xEA, 0x9E, 0xB0] ∧ escapeJson [0x00] = .ok [0x5C, 0x75, 0x30, 0x30, 0x30, 0x30] := by
  decide +kernel

end Ystring
