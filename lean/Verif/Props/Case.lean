import Verif.Props.CaseChar
import Verif.Props.Codec
/-
Property theorems C53 (case conversion of strings) and C15 (append).
-/
namespace Ystring
open Spec

/-! ### C15 append -/

/-- `append` in one line -/
theorem append_eq (s : Str) (c : Char32) :
    append s c = if c.toNat ≤ 0x10FFFF then .ok (s ++ rfcEncode c.toNat) else .error .ystring := by
  unfold append
  by_cases h : c.toNat ≤ 0x10FFFF
  · rw [if_pos h, if_pos, encodeUtf8_rfc c h]
    have := (C03_encode_rfc3629 c).1 h
    rw [this.2, ← this.1, encodeUtf8_length, encodedLength_eq]
    repeat' split
    all_goals omega
  · rw [if_neg h, if_neg]
    have := (C03_encode_rfc3629 c).2 (by omega)
    simp [this.2]

/-- C15: append adds the RFC 3629 encoding of the code point, and throws (leaving the string alone, see the
model's comment) iff the value exceeds U+10FFFF. -/
theorem C15_append (s : Str) (c : Char32) :
    (c.toNat ≤ 0x10FFFF → append s c = .ok (s ++ rfcEncode c.toNat)) ∧
    (0x10FFFF < c.toNat → append s c = .error .ystring) := by
  rw [append_eq]
  exact ⟨fun h => if_pos h, fun h => if_neg (by omega)⟩

/-- C15: appending to a valid string yields a valid string with one more code point. -/
theorem C15_append_valid (s : Str) (cs : List Char32) (c : Char32) (t : Str) (hs : Decodes s cs)
    (h : append s c = .ok t) : Decodes t (cs ++ [c]) := by
  rw [append_eq] at h
  split at h
  · rename_i hc
    cases h
    exact hs.append (rfcEncode_seq c hc).decodes
  · cases h

example : append [0x61] 0x20AC = .ok [0x61, 0xE2, 0x82, 0xAC] := by decide +kernel

/-! ### C53 Case conversion of strings -/

/-- all code points are at most U+10FFFF -/
def InUnicode (cs : List Char32) : Prop := ∀ c ∈ cs, c.toNat ≤ 0x10FFFF

/-- the lower case text: every code point replaced by its simple lower case mapping -/
def Spec.lowerText (cs : List Char32) : Str := cs.flatMap fun c => rfcEncode (simpleLower c.toNat)

/-- the upper case text: ß becomes SS, every other code point its simple upper case mapping -/
def Spec.upperText (cs : List Char32) : Str :=
  cs.flatMap fun c => if c.toNat = 0xDF then [0x53, 0x53] else rfcEncode (simpleUpper c.toNat)

/-- the title case text: code points that are not letters are kept; the first letter of each run of letters
becomes its title case (ß becomes Ss), the other letters their lower case. `pre` tells whether the previous
code point was a letter. -/
def Spec.titleText (letter : Char32 → Bool) : Bool → List Char32 → Str
  | _, [] => []
  | pre, c :: cs =>
    if letter c then
      (if pre then rfcEncode (simpleLower c.toNat)
       else if c.toNat = 0xDF then [0x53, 0x73] else rfcEncode (simpleTitle c.toNat))
      ++ titleText letter true cs
    else rfcEncode c.toNat ++ titleText letter false cs

theorem valsOf_mem {us : List Unit8} {x} (h : x ∈ us) : x.2 ∈ valsOf us := List.mem_map_of_mem h

theorem ne_DF (c : Char32) : c ≠ 0xDF ↔ c.toNat ≠ 0xDF := by
  rw [ne_eq, ← UInt32.toNat_inj]; rfl

theorem toLowerLoop_units (us : List Unit8) (h : Units us) (hu : InUnicode (valsOf us)) (t r : Str) (fuel : Nat) :
    toLowerLoop (us.length + fuel) (bytesOf us ++ t) r = toLowerLoop fuel t (r ++ lowerText (valsOf us)) := by
  induction us generalizing r with
  | nil => simp [lowerText]
  | cons x us ih =>
    rw [Units_cons] at h
    have hx : (toLowerChar x.2).toNat ≤ 0x10FFFF := (C52_range x.2).1.mpr (hu _ (by simp))
    have : (x :: us).length + fuel = (us.length + fuel) + 1 := by simp only [List.length_cons]; omega
    rw [this, bytesOf_cons, List.append_assoc]
    simp only [toLowerLoop]
    rw [safeDecodeNext_seq h.1]
    simp only [bind, Except.bind]
    rw [append_eq, if_pos hx]
    simp only
    rw [ih h.2 (fun c hc => hu c (by simp [hc])), C52_to_lower]
    simp [lowerText]

theorem toUpperLoop_units (us : List Unit8) (h : Units us) (hu : InUnicode (valsOf us)) (t r : Str) (fuel : Nat) :
    toUpperLoop (us.length + fuel) (bytesOf us ++ t) r = toUpperLoop fuel t (r ++ upperText (valsOf us)) := by
  induction us generalizing r with
  | nil => simp [upperText]
  | cons x us ih =>
    rw [Units_cons] at h
    have hx : (toUpperChar x.2).toNat ≤ 0x10FFFF := (C52_range x.2).2.1.mpr (hu _ (by simp))
    have : (x :: us).length + fuel = (us.length + fuel) + 1 := by simp only [List.length_cons]; omega
    rw [this, bytesOf_cons, List.append_assoc]
    simp only [toUpperLoop]
    rw [safeDecodeNext_seq h.1]
    simp only [bind, Except.bind, ne_DF]
    by_cases h0 : x.2.toNat = 0xDF
    · rw [if_neg (by simpa using h0), ih h.2 (fun c hc => hu c (by simp [hc]))]
      simp [upperText, h0]
    · rw [if_pos h0, append_eq, if_pos hx]
      simp only
      rw [ih h.2 (fun c hc => hu c (by simp [hc])), C52_to_upper]
      simp [upperText, h0]

/-- letter state after a list of code points -/
def endState (letter : Char32 → Bool) : Bool → List Char32 → Bool
  | pre, [] => pre
  | _, c :: cs => endState letter (letter c) cs

theorem toTitleLoop_units (us : List Unit8) (h : Units us) (hu : InUnicode (valsOf us)) (t r : Str) (fuel : Nat)
    (pre : Bool) :
    toTitleLoop (us.length + fuel) (bytesOf us ++ t) r pre =
      toTitleLoop fuel t (r ++ titleText isLetter pre (valsOf us)) (endState isLetter pre (valsOf us)) := by
  induction us generalizing r pre with
  | nil => simp [titleText, endState]
  | cons x us ih =>
    rw [Units_cons] at h
    have hx0 : x.2.toNat ≤ 0x10FFFF := hu _ (by simp)
    have hx1 : (toLowerChar x.2).toNat ≤ 0x10FFFF := (C52_range x.2).1.mpr hx0
    have hx2 : (toTitleChar x.2).toNat ≤ 0x10FFFF := (C52_range x.2).2.2.mpr hx0
    have : (x :: us).length + fuel = (us.length + fuel) + 1 := by simp only [List.length_cons]; omega
    rw [this, bytesOf_cons, List.append_assoc]
    simp only [toTitleLoop]
    rw [safeDecodeNext_seq h.1]
    simp only [bind, Except.bind, ne_DF]
    have hus : InUnicode (valsOf us) := fun c hc => hu c (by simp [hc])
    cases hl : isLetter x.2 with
    | false =>
      simp only [Bool.not_false, if_true, append_eq, if_pos hx0]
      rw [ih h.2 hus]
      simp [titleText, endState, hl]
    | true =>
      simp only [Bool.not_true]
      rw [if_neg (by decide)]
      cases pre with
      | true =>
        simp only [if_true, append_eq, if_pos hx1]
        rw [ih h.2 hus, C52_to_lower]
        simp [titleText, endState, hl]
      | false =>
        rw [if_neg (by decide)]
        by_cases h0 : x.2.toNat = 0xDF
        · rw [if_neg (by simpa using h0), ih h.2 hus]
          simp [titleText, endState, hl, h0]
        · rw [if_pos h0, append_eq, if_pos hx2]
          simp only
          rw [ih h.2 hus, C52_to_title]
          simp [titleText, endState, hl, h0]

/-- a string splits into units up to U+10FFFF and a rest that starts badly or with a larger value -/
theorem decompose_unicode (s : Str) : ∃ us t, Units us ∧ InUnicode (valsOf us) ∧ s = bytesOf us ++ t ∧
    (¬ HasSeqPrefix t ∨ ∃ u c t', IsSeq u c ∧ t = u ++ t' ∧ 0x10FFFF < c.toNat) := by
  obtain ⟨us, t, h, rfl, ht⟩ := splitUnits s
  have : ∀ us, Units us → ∃ vs t', Units vs ∧ InUnicode (valsOf vs) ∧ bytesOf us ++ t = bytesOf vs ++ t' ∧
      (¬ HasSeqPrefix t' ∨ ∃ u c t'', IsSeq u c ∧ t' = u ++ t'' ∧ 0x10FFFF < c.toNat) := by
    intro us
    induction us with
    | nil => intro _; exact ⟨[], t, Units.nil, by simp [InUnicode], by simp, .inl ht⟩
    | cons x us ih =>
      intro h
      rw [Units_cons] at h
      by_cases hx : x.2.toNat ≤ 0x10FFFF
      · obtain ⟨vs, t', h1, h2, h3, h4⟩ := ih h.2
        refine ⟨x :: vs, t', by simp [h1, h.1], ?_, by simp [h3], h4⟩
        intro c hc
        simp only [valsOf_cons, List.mem_cons] at hc
        rcases hc with rfl | hc
        · exact hx
        · exact h2 c hc
      · exact ⟨[], bytesOf (x :: us) ++ t, Units.nil, by simp [InUnicode], by simp,
          .inr ⟨x.1, x.2, bytesOf us ++ t, h.1, by simp, by omega⟩⟩
  exact this us h

/-- a rest of that kind is decodable as code points up to U+10FFFF only if it is empty -/
theorem bad_rest {us : List Unit8} {t : Str} (h : Units us)
    (ht : ¬ HasSeqPrefix t ∨ ∃ u c t', IsSeq u c ∧ t = u ++ t' ∧ 0x10FFFF < c.toNat) :
    t = [] ∨ ¬ ∃ cs, Decodes (bytesOf us ++ t) cs ∧ InUnicode cs := by
  rcases ht with ht | ⟨u, c, t', hu, rfl, hc⟩
  · by_cases h0 : t = []
    · exact .inl h0
    · right
      rintro ⟨cs, hd, _⟩
      exact h0 ((valid_bad_tail h ht).mp ⟨cs, hd⟩)
  · right
    rintro ⟨cs, hd, hin⟩
    obtain ⟨vs, hv, hb, rfl⟩ := hd.units
    obtain ⟨ws, hw, rfl, hwb⟩ := (valid_suffix h hv hb.symm)
    cases ws with
    | nil => have := hu.ne_nil; simp at hwb; exact this hwb.1
    | cons x ws =>
      rw [Units_cons] at hw
      obtain ⟨_, rfl, _⟩ := IsSeq.append_inj hu hw.1 hwb
      have := hin x.2 (by simp)
      omega


/-- the shape of a string conversion: result on strings of code points up to U+10FFFF, exception on all
others -/
theorem conv_total (f : Str → Res Str) (g : List Char32 → Str)
    (hok : ∀ us, Units us → InUnicode (valsOf us) → f (bytesOf us) = .ok (g (valsOf us)))
    (hbad : ∀ us t, Units us → InUnicode (valsOf us) → t ≠ [] →
      (¬ HasSeqPrefix t ∨ ∃ u c t', IsSeq u c ∧ t = u ++ t' ∧ 0x10FFFF < c.toNat) →
      f (bytesOf us ++ t) = .error .ystring) (s : Str) :
    (∀ cs, Decodes s cs → InUnicode cs → f s = .ok (g cs)) ∧
    ((¬ ∃ cs, Decodes s cs ∧ InUnicode cs) → f s = .error .ystring) := by
  constructor
  · intro cs hd hu
    obtain ⟨us, h, rfl, rfl⟩ := hd.units
    exact hok us h hu
  · intro hn
    obtain ⟨us, t, h, hu, rfl, ht⟩ := decompose_unicode s
    refine hbad us t h hu ?_ ht
    rintro rfl
    exact hn ⟨valsOf us, by simpa using h.decodes, hu⟩

theorem fuel_split {us : List Unit8} {t : Str} (h : Units us) :
    ∃ fuel, (bytesOf us ++ t).length + 1 = us.length + (fuel + 1) := by
  have := units_length_le h
  exact ⟨(bytesOf us ++ t).length - us.length, by rw [List.length_append]; omega⟩

/-- C53: on every string of code points up to U+10FFFF `to_lower` returns the lower case text; on every other
byte string it throws YstringException. -/
theorem C53_to_lower (s : Str) :
    (∀ cs, Decodes s cs → InUnicode cs → toLower s = .ok (lowerText cs)) ∧
    ((¬ ∃ cs, Decodes s cs ∧ InUnicode cs) → toLower s = .error .ystring) := by
  refine conv_total toLower lowerText ?_ ?_ s
  · intro us h hu
    obtain ⟨fuel, hf⟩ := fuel_split (t := []) h
    rw [List.append_nil] at hf
    have := toLowerLoop_units us h hu [] [] (fuel + 1)
    rw [List.append_nil] at this
    rw [toLower, hf, this]
    simp [toLowerLoop, bind, Except.bind]
  · intro us t h hu h0 ht
    obtain ⟨fuel, hf⟩ := fuel_split (t := t) h
    rw [toLower, hf, toLowerLoop_units us h hu]
    simp only [toLowerLoop]
    rcases ht with ht | ⟨u, c, t', hc, rfl, hb⟩
    · rw [safeDecodeNext_bad h0 ht]; rfl
    · rw [safeDecodeNext_seq hc]
      simp only [bind, Except.bind, append_eq]
      rw [if_neg (by have := (C52_range c).1; omega)]

/-- C53: likewise `to_upper`. -/
theorem C53_to_upper (s : Str) :
    (∀ cs, Decodes s cs → InUnicode cs → toUpper s = .ok (upperText cs)) ∧
    ((¬ ∃ cs, Decodes s cs ∧ InUnicode cs) → toUpper s = .error .ystring) := by
  refine conv_total toUpper upperText ?_ ?_ s
  · intro us h hu
    obtain ⟨fuel, hf⟩ := fuel_split (t := []) h
    rw [List.append_nil] at hf
    have := toUpperLoop_units us h hu [] [] (fuel + 1)
    rw [List.append_nil] at this
    rw [toUpper, hf, this]
    simp [toUpperLoop, bind, Except.bind]
  · intro us t h hu h0 ht
    obtain ⟨fuel, hf⟩ := fuel_split (t := t) h
    rw [toUpper, hf, toUpperLoop_units us h hu]
    simp only [toUpperLoop]
    rcases ht with ht | ⟨u, c, t', hc, rfl, hb⟩
    · rw [safeDecodeNext_bad h0 ht]; rfl
    · rw [safeDecodeNext_seq hc]
      simp only [bind, Except.bind, append_eq]
      rw [if_pos (by rw [ne_DF]; omega), if_neg (by have := (C52_range c).2.1; omega)]

/-- C53: likewise `to_title`; a letter is what the library's `is_letter` says (see C50 and C51 about it). -/
theorem C53_to_title (s : Str) :
    (∀ cs, Decodes s cs → InUnicode cs → toTitle s = .ok (titleText isLetter false cs)) ∧
    ((¬ ∃ cs, Decodes s cs ∧ InUnicode cs) → toTitle s = .error .ystring) := by
  refine conv_total toTitle (titleText isLetter false) ?_ ?_ s
  · intro us h hu
    obtain ⟨fuel, hf⟩ := fuel_split (t := []) h
    rw [List.append_nil] at hf
    have := toTitleLoop_units us h hu [] [] (fuel + 1) false
    rw [List.append_nil] at this
    rw [toTitle, hf, this]
    simp [toTitleLoop, bind, Except.bind]
  · intro us t h hu h0 ht
    obtain ⟨fuel, hf⟩ := fuel_split (t := t) h
    rw [toTitle, hf, toTitleLoop_units us h hu]
    generalize endState isLetter false (valsOf us) = pre
    simp only [toTitleLoop]
    rcases ht with ht | ⟨u, c, t', hc, rfl, hb⟩
    · rw [safeDecodeNext_bad h0 ht]; rfl
    · rw [safeDecodeNext_seq hc]
      simp only [bind, Except.bind, append_eq]
      have := C52_range c
      cases isLetter c <;> cases pre <;> simp only [Bool.not_false, Bool.not_true, if_true, Bool.false_eq_true, if_false]
      · rw [if_neg (by omega)]
      · rw [if_neg (by omega)]
      · rw [if_pos (by rw [ne_DF]; omega), if_neg (by omega)]
      · rw [if_neg (by omega)]

/-- "ß" and the overlong, but decodable, C1 81; both reach the first branch; F7 BF BF BF and 80 the second -/
example : toUpper [0xC3, 0x9F, 0x62] = .ok [0x53, 0x53, 0x42] ∧ toTitle [0x20, 0xC3, 0x9F, 0x42] = .ok [0x20, 0x53, 0x73, 0x62] ∧
    toLower [0xC1, 0x81] = .ok [0x61] ∧
    toLower [0xF7, 0xBF, 0xBF, 0xBF] = .error .ystring ∧ toLower [0x41, 0x80] = .error .ystring := by
  decide +kernel

theorem decodes_flatMap (cs : List Char32) (g : Char32 → List Char32) (h : ∀ c ∈ cs, InUnicode (g c)) :
    Decodes (cs.flatMap fun c => (g c).flatMap (fun d => rfcEncode d.toNat)) (cs.flatMap g) := by
  induction cs with
  | nil => exact .nil
  | cons c cs ih =>
    simp only [List.flatMap_cons]
    refine Decodes.append ?_ (ih (fun d hd => h d (by simp [hd])))
    have hc := h c (by simp)
    generalize g c = l at hc
    induction l with
    | nil => exact .nil
    | cons d l ihl =>
      simp only [List.flatMap_cons]
      exact .cons (rfcEncode_seq d (hc d (by simp))) (ihl (fun e he => hc e (by simp [he])))

/-- the code points of the upper case text -/
def upperChars (c : Char32) : List Char32 := if c.toNat = 0xDF then [0x53, 0x53] else [toUpperChar c]

theorem upperText_eq (cs : List Char32) :
    upperText cs = cs.flatMap fun c => (upperChars c).flatMap (fun d => rfcEncode d.toNat) := by
  unfold upperText upperChars
  congr 1
  funext c
  split
  · decide
  · simp [C52_to_upper]

theorem lowerText_eq (cs : List Char32) :
    lowerText cs = cs.flatMap fun c => ([toLowerChar c]).flatMap (fun d => rfcEncode d.toNat) := by
  unfold lowerText
  congr 1
  funext c
  simp [C52_to_lower]

theorem upperText_decodes (cs : List Char32) (h : InUnicode cs) : Decodes (upperText cs) (cs.flatMap upperChars) ∧
    InUnicode (cs.flatMap upperChars) := by
  have hc : ∀ c ∈ cs, InUnicode (upperChars c) := by
    intro c hc
    unfold upperChars
    split
    · intro d hd; simp at hd; subst hd; decide
    · intro d hd; simp at hd; subst hd; exact (C52_range c).2.1.mpr (h c hc)
  refine ⟨?_, ?_⟩
  · rw [upperText_eq]
    exact decodes_flatMap cs upperChars hc
  · intro d hd
    obtain ⟨c, h1, h2⟩ := List.mem_flatMap.mp hd
    exact hc c h1 d h2

theorem lowerText_decodes (cs : List Char32) (h : InUnicode cs) : Decodes (lowerText cs) (cs.map toLowerChar) ∧
    InUnicode (cs.map toLowerChar) := by
  have hc : ∀ c ∈ cs, InUnicode [toLowerChar c] := by
    intro c hc d hd
    simp at hd; subst hd; exact (C52_range c).1.mpr (h c hc)
  refine ⟨?_, ?_⟩
  · rw [lowerText_eq, List.map_eq_flatMap]
    exact decodes_flatMap cs (fun c => [toLowerChar c]) hc
  · intro d hd
    obtain ⟨c, h1, rfl⟩ := List.mem_map.mp hd
    exact (C52_range c).1.mpr (h c h1)

/-- a conversion that does not throw was given a string of code points up to U+10FFFF -/
theorem conv_ok {f : Str → Res Str} {g : List Char32 → Str}
    (h : ∀ s, (∀ cs, Decodes s cs → InUnicode cs → f s = .ok (g cs)) ∧
      ((¬ ∃ cs, Decodes s cs ∧ InUnicode cs) → f s = .error .ystring)) {s t : Str} (ht : f s = .ok t) :
    ∃ cs, Decodes s cs ∧ InUnicode cs ∧ t = g cs := by
  by_cases hd : ∃ cs, Decodes s cs ∧ InUnicode cs
  · obtain ⟨cs, h1, h2⟩ := hd
    refine ⟨cs, h1, h2, ?_⟩
    have := (h s).1 cs h1 h2
    rw [ht] at this
    exact Except.ok.inj this
  · have := (h s).2 hd
    rw [ht] at this; cases this

theorem upperChars_idem (c : Char32) : (upperChars c).flatMap upperChars = upperChars c := by
  unfold upperChars
  split
  · decide +kernel
  · rename_i h
    have : (toUpperChar c).toNat ≠ 0xDF := by rw [C52_to_upper]; exact simpleUpper_ne_ss _ h
    simp [this, (C52_idempotent c).2.1]

/-- C53: `to_upper` and `to_lower` are idempotent. -/
theorem C53_idempotent (s t : Str) :
    (toUpper s = .ok t → toUpper t = .ok t) ∧ (toLower s = .ok t → toLower t = .ok t) := by
  constructor
  · intro h
    obtain ⟨cs, h1, h2, rfl⟩ := conv_ok C53_to_upper h
    obtain ⟨h3, h4⟩ := upperText_decodes cs h2
    rw [(C53_to_upper _).1 _ h3 h4]
    congr 1
    rw [upperText_eq, upperText_eq, List.flatMap_assoc]
    congr 1
    funext c
    rw [← List.flatMap_assoc, upperChars_idem]
  · intro h
    obtain ⟨cs, h1, h2, rfl⟩ := conv_ok C53_to_lower h
    obtain ⟨h3, h4⟩ := lowerText_decodes cs h2
    rw [(C53_to_lower _).1 _ h3 h4]
    congr 1
    rw [lowerText_eq, lowerText_eq, List.flatMap_map]
    congr 1
    funext c
    rw [(C52_idempotent c).1]

theorem titleText_valid (cs : List Char32) (h : InUnicode cs) (pre : Bool) : Valid (titleText isLetter pre cs) ∧
    ((∀ c ∈ cs, IsScalar c.toNat) → WellFormed (titleText isLetter pre cs)) := by
  have rv : ∀ n, n ≤ 0x10FFFF → ∃ cs, Decodes (rfcEncode n) cs := by
    intro n hn
    have e : (UInt32.ofNat n).toNat = n := UInt32.toNat_ofNat_of_lt' (by show _ < 4294967296; omega)
    have := rfcEncode_seq (UInt32.ofNat n) (by rw [e]; exact hn)
    rw [e] at this
    exact ⟨_, this.decodes⟩
  have vcons : ∀ a b : Str, Valid a → Valid b → Valid (a ++ b) := fun a b ⟨x, hx⟩ ⟨y, hy⟩ => ⟨_, hx.append hy⟩
  have wcons : ∀ a b : Str, WellFormed a → WellFormed b → WellFormed (a ++ b) := by
    rintro a b ⟨x, hx, rfl⟩ ⟨y, hy, rfl⟩
    refine ⟨x ++ y, ?_, by simp⟩
    intro c hc
    rcases List.mem_append.mp hc with hc | hc
    · exact hx c hc
    · exact hy c hc
  have w1 : ∀ n, IsScalar n → WellFormed (rfcEncode n) := fun n hn => ⟨[n], by simpa using hn, by simp⟩
  induction cs generalizing pre with
  | nil => exact ⟨⟨[], .nil⟩, fun _ => ⟨[], by simp, rfl⟩⟩
  | cons c cs ih =>
    have hc : c.toNat ≤ 0x10FFFF := h c (by simp)
    have ih := ih (fun d hd => h d (by simp [hd]))
    have hss : ([0x53, 0x73] : Str) = rfcEncode 0x53 ++ rfcEncode 0x73 := by decide
    unfold titleText
    split
    · refine ⟨vcons _ _ ?_ (ih true).1, fun hs => wcons _ _ ?_ ((ih true).2 (fun d hd => hs d (by simp [hd])))⟩
      · split
        · exact rv _ ((simpleLower_good _).1 hc)
        · split
          · rw [hss]; exact vcons _ _ (rv _ (by omega)) (rv _ (by omega))
          · exact rv _ ((simpleTitle_good _).1 hc)
      · have hs := hs c (by simp)
        split
        · exact w1 _ ((simpleLower_good _).2.2 hs)
        · split
          · rw [hss]; exact wcons _ _ (w1 _ (by unfold IsScalar; omega)) (w1 _ (by unfold IsScalar; omega))
          · exact w1 _ ((simpleTitle_good _).2.2 hs)
    · exact ⟨vcons _ _ (rv _ hc) (ih false).1,
        fun hs => wcons _ _ (w1 _ (hs c (by simp))) ((ih false).2 (fun d hd => hs d (by simp [hd])))⟩

theorem decodes_wellFormed (cs : List Nat) (h : ∀ c ∈ cs, IsScalar c) :
    ∃ ds : List Char32, Decodes (cs.flatMap rfcEncode) ds ∧ ds.map UInt32.toNat = cs := by
  induction cs with
  | nil => exact ⟨[], .nil, rfl⟩
  | cons c cs ih =>
    obtain ⟨ds, h1, h2⟩ := ih (fun d hd => h d (by simp [hd]))
    have hc := h c (by simp)
    have e : (UInt32.ofNat c).toNat = c := UInt32.toNat_ofNat_of_lt' (by
      show _ < 4294967296; unfold IsScalar at hc; omega)
    have := rfcEncode_seq (UInt32.ofNat c) (by rw [e]; unfold IsScalar at hc; omega)
    rw [e] at this
    exact ⟨UInt32.ofNat c :: ds, .cons this h1, by simp [h2, e]⟩

/-- C53: the results are valid strings, and well-formed UTF-8 (RFC 3629) if the argument is. -/
theorem C53_valid (s t : Str) (h : toLower s = .ok t ∨ toUpper s = .ok t ∨ toTitle s = .ok t) :
    Valid t ∧ (WellFormed s → WellFormed t) := by
  have key : ∀ cs, Decodes s cs → WellFormed s → ∀ c ∈ cs, IsScalar c.toNat := by
    rintro cs hd ⟨ns, h1, rfl⟩ c hc
    obtain ⟨ds, h2, rfl⟩ := decodes_wellFormed ns h1
    rw [hd.unique h2] at hc
    exact h1 _ (List.mem_map_of_mem hc)
  rcases h with h | h | h
  · obtain ⟨cs, h1, h2, rfl⟩ := conv_ok C53_to_lower h
    refine ⟨⟨_, (lowerText_decodes cs h2).1⟩, fun hw => ⟨cs.map (fun c => simpleLower c.toNat), ?_, ?_⟩⟩
    · intro n hn
      obtain ⟨c, h3, rfl⟩ := List.mem_map.mp hn
      exact (simpleLower_good _).2.2 (key cs h1 hw c h3)
    · rw [List.flatMap_map]; rfl
  · obtain ⟨cs, h1, h2, rfl⟩ := conv_ok C53_to_upper h
    refine ⟨⟨_, (upperText_decodes cs h2).1⟩, fun hw => ⟨(cs.flatMap upperChars).map UInt32.toNat, ?_, ?_⟩⟩
    · intro n hn
      obtain ⟨d, h3, rfl⟩ := List.mem_map.mp hn
      obtain ⟨c, h4, h5⟩ := List.mem_flatMap.mp h3
      unfold upperChars at h5
      split at h5
      · simp at h5; subst h5; exact .inl (by decide)
      · simp at h5; subst h5
        rw [C52_to_upper]
        exact (simpleUpper_good _).2.2 (key cs h1 hw c h4)
    · rw [upperText_eq, List.flatMap_map, List.flatMap_assoc]
  · obtain ⟨cs, h1, h2, rfl⟩ := conv_ok C53_to_title h
    exact ⟨(titleText_valid cs h2 false).1, fun hw => (titleText_valid cs h2 false).2 (key cs h1 hw)⟩

/-- the hypotheses are met by non-trivial strings -/
example : toLower [0xC3, 0x84, 0x42] = .ok [0xC3, 0xA4, 0x62] ∧ toUpper [0xC3, 0xA4, 0x62] = .ok [0xC3, 0x84, 0x42] ∧
    toTitle [0xC3, 0xA4, 0x42] = .ok [0xC3, 0x84, 0x62] := by decide +kernel

end Ystring
