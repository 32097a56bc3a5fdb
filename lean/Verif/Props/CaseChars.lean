import Verif.Proofs.CaseMarks
import Verif.Props.CaseLaws2
import Verif.Props.DecomposeChars
/-
Property theorems C115: case conversion and the characters of a string.
-/
namespace Ystring
open Spec

/-- The code points of `s` have the property `P`. -/
def Spec.EachCodepoint (P : Char32 → Prop) (s : Str) : Prop := ∀ cs, Decodes s cs → ∀ c ∈ cs, P c

/-! ### Conversions of single code points -/

/-- `conv` replaces every code point `c` with `P c` by `f c`, which is a mark iff `c` is one -/
structure OneByOne (conv : Str → Res Str) (f : Char32 → Char32) (P : Char32 → Prop) : Prop where
  ok : ∀ us, Units us → (∀ u ∈ us, P u.2) → conv (bytesOf us) = .ok (us.flatMap fun u => rfcEncode (f u.2).toNat)
  uni : ∀ c, P c → (f c).toNat ≤ 0x10FFFF
  mark : ∀ c, P c → isMark (f c) = isMark c

/-- the unit of the converted code point -/
def convUnit (f : Char32 → Char32) (u : Unit8) : Unit8 := (rfcEncode (f u.2).toNat, f u.2)

variable {conv : Str → Res Str} {f : Char32 → Char32} {P : Char32 → Prop}

theorem OneByOne.units (h : OneByOne conv f P) {us : List Unit8} (hP : ∀ u ∈ us, P u.2) : Units (us.map (convUnit f)) := by
  intro x hx
  obtain ⟨u, hu, rfl⟩ := List.mem_map.mp hx
  exact rfcEncode_seq _ (h.uni _ (hP u hu))

theorem OneByOne.run (h : OneByOne conv f P) {us : List Unit8} (hu : Units us) (hP : ∀ u ∈ us, P u.2) :
    conv (bytesOf us) = .ok (bytesOf (us.map (convUnit f))) := by
  rw [h.ok us hu hP]
  simp [bytesOf, List.flatMap_map, convUnit]

theorem OneByOne.groups (h : OneByOne conv f P) {ugs : List (List Unit8)} (hg : Groups ugs) (hP : ∀ g ∈ ugs, ∀ u ∈ g, P u.2) :
    Groups (ugs.map (·.map (convUnit f))) := by
  refine ⟨?_, ?_, ?_⟩
  · intro g' hg'
    obtain ⟨g, hg1, rfl⟩ := List.mem_map.mp hg'
    exact h.units (hP g hg1)
  · intro g' hg'
    obtain ⟨g, hg1, rfl⟩ := List.mem_map.mp hg'
    obtain ⟨x, ms, rfl, hm⟩ := hg.chars g hg1
    refine ⟨_, _, List.map_cons, ?_⟩
    intro m' hm'
    obtain ⟨m, hm1, rfl⟩ := List.mem_map.mp hm'
    rw [convUnit, h.mark _ (hP _ hg1 m (by simp [hm1]))]
    exact hm m hm1
  · intro g' hg' hm
    rw [← List.map_tail] at hg'
    obtain ⟨g, hg1, rfl⟩ := List.mem_map.mp hg'
    have hg2 := List.mem_of_mem_tail hg1
    obtain ⟨x, ms, rfl, -⟩ := hg.chars g hg2
    obtain ⟨y, ns, e, hy⟩ := hm
    obtain ⟨rfl, -⟩ := List.cons.inj (List.map_cons.symm.trans e)
    rw [convUnit, h.mark _ (hP _ hg2 x (by simp))] at hy
    exact hg.heads _ hg1 ⟨x, ms, rfl, hy⟩

theorem flatten_conv (f : Char32 → Char32) (ugs : List (List Unit8)) :
    (ugs.map (·.map (convUnit f))).flatten = ugs.flatten.map (convUnit f) := by
  rw [List.map_flatten]

theorem OneByOne.part (h : OneByOne conv f P) {ugs : List (List Unit8)} (hg : ∀ g ∈ ugs, Units g) (hP : ∀ g ∈ ugs, ∀ u ∈ g, P u.2) :
    conv (ugs.map bytesOf).flatten = .ok ((ugs.map (·.map (convUnit f))).map bytesOf).flatten := by
  rw [← bytesOf_flatten, ← bytesOf_flatten, flatten_conv]
  refine h.run (units_flatten hg) ?_
  intro u hu
  obtain ⟨g, h1, h2⟩ := List.mem_flatten.mp hu
  exact hP g h1 u h2

theorem OneByOne.mapM (h : OneByOne conv f P) {ugs : List (List Unit8)} (hg : ∀ g ∈ ugs, Units g) (hP : ∀ g ∈ ugs, ∀ u ∈ g, P u.2) :
    (ugs.map bytesOf).mapM conv = .ok ((ugs.map (·.map (convUnit f))).map bytesOf) := by
  induction ugs with
  | nil => rfl
  | cons g ugs ih =>
    rw [List.map_cons, List.mapM_cons, h.run (hg g (by simp)) (hP g (by simp)),
      ih (fun g h => hg g (by simp [h])) (fun g h => hP g (by simp [h]))]
    rfl

/-- everything about the characters of a string and of the converted one -/
theorem OneByOne.core (h : OneByOne conv f P) {s t : Str} {gs : List Str} (hc : Characters s gs) (hP : EachCodepoint P s) (ht : conv s = .ok t) :
    ∃ ugs, Groups ugs ∧ ugs.map bytesOf = gs ∧ (∀ g ∈ ugs, ∀ u ∈ g, P u.2) ∧
      Groups (ugs.map (·.map (convUnit f))) ∧ t = ((ugs.map (·.map (convUnit f))).map bytesOf).flatten := by
  obtain ⟨ugs, hg, rfl⟩ := characters_groups hc
  have hf := units_flatten hg.units
  have hs : bytesOf ugs.flatten = s := by rw [bytesOf_flatten]; exact hc.1
  have hP' : ∀ g ∈ ugs, ∀ u ∈ g, P u.2 := by
    intro g h1 u h2
    have hmem : u ∈ ugs.flatten := List.mem_flatten.mpr ⟨g, h1, h2⟩
    exact hP _ (hs ▸ hf.decodes) u.2 (List.mem_map_of_mem hmem)
  refine ⟨ugs, hg, rfl, hP', h.groups hg hP', ?_⟩
  have := h.part hg.units hP'
  rw [hc.1, ht] at this
  exact Except.ok.inj this

theorem OneByOne.characters (h : OneByOne conv f P) {s t : Str} {gs : List Str} (hc : Characters s gs) (hP : EachCodepoint P s)
    (ht : conv s = .ok t) : ∃ hs, gs.mapM conv = .ok hs ∧ Characters t hs ∧ hs.length = gs.length := by
  obtain ⟨ugs, hg, rfl, hP', hg', rfl⟩ := h.core hc hP ht
  refine ⟨_, h.mapM hg.units hP', ?_, by simp⟩
  have := groups_characters hg'
  rwa [bytesOf_flatten] at this

theorem OneByOne.substring (h : OneByOne conv f P) {s t : Str} {gs : List Str} (hc : Characters s gs) (hP : EachCodepoint P s)
    (ht : conv s = .ok t) (hl : s.length < 2 ^ 63) (hl' : t.length < 2 ^ 63) (i j : Int) (hg : GoodCharSlice gs.length i j) :
    ∃ a b, getCharSubstring s i j = .ok a ∧ getCharSubstring t i j = .ok b ∧ conv a = .ok b := by
  obtain ⟨ugs, hgs, rfl, hP', hg', rfl⟩ := h.core hc hP ht
  have hc' := groups_characters hg'
  rw [bytesOf_flatten] at hc'
  refine ⟨_, _, C30_get_char_substring_partial s _ hc hl i j hg,
    C30_get_char_substring_partial _ _ hc' hl' i j (by simpa using hg), ?_⟩
  rw [slice_map, List.map_map, slice_map]
  have e : ∀ l : List (List Unit8), l.map (bytesOf ∘ (·.map (convUnit f))) = (l.map (·.map (convUnit f))).map bytesOf := by simp
  rw [e]
  refine h.part (fun g hm => hgs.units g ?_) (fun g hm => hP' g ?_) <;>
    exact List.mem_of_mem_take (List.mem_of_mem_drop hm)

theorem OneByOne.reverse (h : OneByOne conv f P) {s t : Str} {gs : List Str} (hc : Characters s gs) (hP : EachCodepoint P s)
    (ht : conv s = .ok t) (hl : s.length < SIZE_MOD) (hl' : t.length < SIZE_MOD) :
    ∃ a b, Ystring.reverse s = .ok a ∧ Ystring.reverse t = .ok b ∧ conv a = .ok b := by
  obtain ⟨ugs, hgs, rfl, hP', hg', rfl⟩ := h.core hc hP ht
  have hc' := groups_characters hg'
  rw [bytesOf_flatten] at hc'
  refine ⟨_, _, (C33_reverse s _ hc hl).1, (C33_reverse _ _ hc' hl').1, ?_⟩
  rw [← List.map_reverse, ← List.map_reverse, ← List.map_reverse]
  exact h.part (fun g hm => hgs.units g (by simpa using hm)) (fun g hm => hP' g (by simpa using hm))

/-! ### Code points -/

/-- the code points of a list of units as single strings -/
theorem codePoints_units {s : Str} {gs : List Str} (h : CodePoints s gs) : ∃ us, Units us ∧ us.map (·.1) = gs ∧ bytesOf us = s := by
  obtain ⟨rfl, h2⟩ := h
  induction gs with
  | nil => exact ⟨[], (by intro x hx; cases hx), rfl, rfl⟩
  | cons g gs ih =>
    obtain ⟨c, hc⟩ := h2 g (by simp)
    obtain ⟨us, h1, h3, h4⟩ := ih (fun g h => h2 g (by simp [h]))
    refine ⟨(g, c) :: us, ?_, by simp [h3], by simp [bytesOf] at h4 ⊢; exact h4⟩
    intro x hx
    rcases List.mem_cons.mp hx with rfl | hx
    · exact hc
    · exact h1 x hx

theorem OneByOne.codepoints (h : OneByOne conv f P) {s t : Str} {gs : List Str} (hc : CodePoints s gs) (hP : EachCodepoint P s)
    (ht : conv s = .ok t) (hl : s.length < npos) (hl' : t.length < npos) (i j : Int) (hi : PTRDIFF_MIN < i) (hj : PTRDIFF_MIN < j)
    (hg : GoodCodepointSlice gs.length i j) :
    ∃ a b, getCodepointSubstring s i j = .ok a ∧ getCodepointSubstring t i j = .ok b ∧ conv a = .ok b := by
  obtain ⟨us, hu, rfl, rfl⟩ := codePoints_units hc
  have hP' : ∀ u ∈ us, P u.2 := fun u h => hP _ hu.decodes u.2 (List.mem_map_of_mem h)
  have := h.run hu hP'
  rw [ht] at this
  obtain rfl := Except.ok.inj this
  have hu' := h.units hP'
  have hc' : CodePoints (bytesOf (us.map (convUnit f))) ((us.map (convUnit f)).map (·.1)) := by
    refine ⟨by simp [bytesOf, List.flatMap_def], ?_⟩
    intro g hg
    obtain ⟨u, h1, rfl⟩ := List.mem_map.mp hg
    exact ⟨_, hu' u h1⟩
  refine ⟨_, _, C29_get_codepoint_substring_partial _ _ hc hl i j hi hj hg,
    C29_get_codepoint_substring_partial _ _ hc' hl' i j hi hj (by simpa using hg), ?_⟩
  rw [slice_map, slice_map, List.length_map, ← List.map_take, ← List.map_drop]
  have e : ∀ l : List Unit8, (l.map (·.1)).flatten = bytesOf l := by intro l; simp [bytesOf, List.flatMap_def]
  rw [e, e]
  refine h.run (fun u hm => hu u ?_) (fun u hm => hP' u ?_) <;>
    exact List.mem_of_mem_take (List.mem_of_mem_drop hm)

/-! ### to_lower and to_upper -/

theorem isMark_toLowerChar (c : Char32) : isMark (toLowerChar c) = isMark c := by
  have := isMark_lower c.toNat
  rwa [← C52_to_lower, UInt32.ofNat_toNat, UInt32.ofNat_toNat] at this

theorem isMark_toUpperChar (c : Char32) (h : c ≠ 0x345) : isMark (toUpperChar c) = isMark c := by
  have := isMark_upper c.toNat (fun e => h (UInt32.toNat_inj.mp e))
  rwa [← C52_to_upper, UInt32.ofNat_toNat, UInt32.ofNat_toNat] at this

theorem isMark_toTitleChar (c : Char32) (h : c ≠ 0x345) : isMark (toTitleChar c) = isMark c := by
  have := isMark_title c.toNat (fun e => h (UInt32.toNat_inj.mp e))
  rwa [← C52_to_title, UInt32.ofNat_toNat, UInt32.ofNat_toNat] at this

theorem lower_oneByOne : OneByOne toLower toLowerChar (fun c => c.toNat ≤ 0x10FFFF) where
  ok us hu hP := by
    rw [(C53_to_lower _).1 _ hu.decodes (by
      intro c hc
      obtain ⟨u, h1, rfl⟩ := List.mem_map.mp hc
      exact hP u h1)]
    simp [lowerText, valsOf, List.flatMap_map, C52_to_lower]
  uni c h := (C52_range c).1.mpr h
  mark c _ := isMark_toLowerChar c

theorem upper_oneByOne : OneByOne toUpper toUpperChar (fun c => c.toNat ≤ 0x10FFFF ∧ c ≠ 0xDF ∧ c ≠ 0x345) where
  ok us hu hP := by
    rw [(C53_to_upper _).1 _ hu.decodes (by
      intro c hc
      obtain ⟨u, h1, rfl⟩ := List.mem_map.mp hc
      exact (hP u h1).1)]
    simp only [upperText, valsOf, List.flatMap_map]
    congr 1
    rw [List.flatMap_def, List.flatMap_def]
    congr 1
    refine List.map_congr_left ?_
    intro u h1
    rw [if_neg ((ne_DF _).mp (hP u h1).2.1), C52_to_upper]
  uni c h := (C52_range c).2.1.mpr h.1
  mark c h := isMark_toUpperChar c h.2.2

theorem lower_unicode {s t : Str} (h : toLower s = .ok t) : EachCodepoint (fun c => c.toNat ≤ 0x10FFFF) s := by
  obtain ⟨cs, h1, h2, -⟩ := conv_ok C53_to_lower h
  intro ds hd c hc
  rw [hd.unique h1] at hc
  exact h2 c hc

theorem upper_unicode {s t : Str} (h : toUpper s = .ok t) (h2 : EachCodepoint (fun c => c ≠ 0xDF ∧ c ≠ 0x345) s) :
    EachCodepoint (fun c => c.toNat ≤ 0x10FFFF ∧ c ≠ 0xDF ∧ c ≠ 0x345) s := by
  obtain ⟨cs, h1, h3, -⟩ := conv_ok C53_to_upper h
  intro ds hd c hc
  refine ⟨?_, h2 ds hd c hc⟩
  rw [hd.unique h1] at hc
  exact h3 c hc

/-- C115: the characters of to_lower(s) are the characters of s in lower case. -/
theorem C115_lower (s t : Str) (gs : List Str) (hc : Characters s gs) (ht : toLower s = .ok t) :
    ∃ hs, gs.mapM toLower = .ok hs ∧ Characters t hs ∧ hs.length = gs.length :=
  lower_oneByOne.characters hc (lower_unicode ht) ht

/-- C115: the characters of to_upper(s) are the characters of s in upper case, if s contains neither sharp s nor U+0345 (COMBINING GREEK
YPOGEGRAMMENI). -/
theorem C115_upper (s t : Str) (gs : List Str) (hc : Characters s gs) (ht : toUpper s = .ok t)
    (h : EachCodepoint (fun c => c ≠ 0xDF ∧ c ≠ 0x345) s) :
    ∃ hs, gs.mapM toUpper = .ok hs ∧ Characters t hs ∧ hs.length = gs.length :=
  upper_oneByOne.characters hc (upper_unicode ht h) ht

/-- C115: to_lower of a substring of characters, of a substring of code points and of a reversed string is the same substring and the reverse of
to_lower(s). (`GoodCharSlice` and `GoodCodepointSlice` are the pairs of indices for which the substring functions return a slice, C29, C30.) -/
theorem C115_lower_parts (s t : Str) (ht : toLower s = .ok t) (hl : s.length < 2 ^ 63) (hl' : t.length < 2 ^ 63) :
    (∀ gs i j, Characters s gs → GoodCharSlice gs.length i j →
      ∃ a b, getCharSubstring s i j = .ok a ∧ getCharSubstring t i j = .ok b ∧ toLower a = .ok b) ∧
    (∀ gs i j, CodePoints s gs → PTRDIFF_MIN < i → PTRDIFF_MIN < j → GoodCodepointSlice gs.length i j →
      ∃ a b, getCodepointSubstring s i j = .ok a ∧ getCodepointSubstring t i j = .ok b ∧ toLower a = .ok b) ∧
    (∃ a b, reverse s = .ok a ∧ reverse t = .ok b ∧ toLower a = .ok b) := by
  have hv := (C53_valid t t)
  have hp : (2 : Nat) ^ 63 < npos := by decide
  have hq : (2 : Nat) ^ 63 < SIZE_MOD := by decide
  refine ⟨fun gs i j hc hg => lower_oneByOne.substring hc (lower_unicode ht) ht hl hl' i j hg,
    fun gs i j hc hi hj hg => lower_oneByOne.codepoints hc (lower_unicode ht) ht (by omega) (by omega) i j hi hj hg, ?_⟩
  obtain ⟨cs, h1, -, -⟩ := conv_ok C53_to_lower ht
  obtain ⟨gs, hc⟩ := (C24_segmentation s).1.mp ⟨cs, h1⟩
  exact lower_oneByOne.reverse hc (lower_unicode ht) ht (by omega) (by omega)

/-- C115: the same for to_upper and strings without sharp s and U+0345 -/
theorem C115_upper_parts (s t : Str) (ht : toUpper s = .ok t) (h : EachCodepoint (fun c => c ≠ 0xDF ∧ c ≠ 0x345) s)
    (hl : s.length < 2 ^ 63) (hl' : t.length < 2 ^ 63) :
    (∀ gs i j, Characters s gs → GoodCharSlice gs.length i j →
      ∃ a b, getCharSubstring s i j = .ok a ∧ getCharSubstring t i j = .ok b ∧ toUpper a = .ok b) ∧
    (∀ gs i j, CodePoints s gs → PTRDIFF_MIN < i → PTRDIFF_MIN < j → GoodCodepointSlice gs.length i j →
      ∃ a b, getCodepointSubstring s i j = .ok a ∧ getCodepointSubstring t i j = .ok b ∧ toUpper a = .ok b) ∧
    (∃ a b, reverse s = .ok a ∧ reverse t = .ok b ∧ toUpper a = .ok b) := by
  have hp : (2 : Nat) ^ 63 < npos := by decide
  have hq : (2 : Nat) ^ 63 < SIZE_MOD := by decide
  have hu := upper_unicode ht h
  refine ⟨fun gs i j hc hg => upper_oneByOne.substring hc hu ht hl hl' i j hg,
    fun gs i j hc hi hj hg => upper_oneByOne.codepoints hc hu ht (by omega) (by omega) i j hi hj hg, ?_⟩
  obtain ⟨cs, h1, -, -⟩ := conv_ok C53_to_upper ht
  obtain ⟨gs, hc⟩ := (C24_segmentation s).1.mp ⟨cs, h1⟩
  exact upper_oneByOne.reverse hc hu ht (by omega) (by omega)

/-! ### The exact number of characters -/

/-- number of code points that are no marks -/
def baseCount (cs : List Char32) : Nat := cs.countP (fun c => !isMark c)

/-- 1 if the first code point is a mark -/
def markFirst : List Char32 → Nat
  | [] => 0
  | c :: _ => if isMark c then 1 else 0

theorem countChars_decodes {s : Str} {cs : List Char32} (h : Decodes s cs) (hl : s.length < SIZE_MOD) :
    countChars s = .ok (baseCount cs + markFirst cs) := by
  obtain ⟨us, hu, rfl⟩ := Valid.units ⟨cs, h⟩
  obtain rfl := h.unique hu.decodes
  obtain ⟨gs, hg, e⟩ := groups_exist us hu
  have c1 := groups_characters hg
  rw [e] at c1
  rw [C25_count_chars _ _ c1 hl, List.length_map, groups_count hg, e]
  congr 1
  congr 1
  · simp [bases, baseCount, valsOf, List.countP_map, Function.comp_def]
  · cases us <;> rfl

theorem baseCount_append (a b : List Char32) : baseCount (a ++ b) = baseCount a + baseCount b := List.countP_append ..

theorem upperChars_count (c : Char32) :
    baseCount (upperChars c) = baseCount [c] + [c].count 0xDF + [c].count 0x345 ∧
    ∀ cs ds, c ≠ 0x345 → markFirst (upperChars c ++ ds) = markFirst (c :: cs) := by
  obtain ⟨m1, m2, m3, m4, m5, -⟩ := mark_345
  unfold upperChars
  by_cases h : c = 0xDF
  · subst h
    rw [if_pos (by decide)]
    simp [baseCount, m4, m5, markFirst]
  · rw [if_neg ((ne_DF c).mp h)]
    by_cases h2 : c = 0x345
    · subst h2
      have e : toUpperChar 0x345 = 0x399 := by
        apply UInt32.toNat_inj.mp
        rw [C52_to_upper]; exact m2
      rw [e]
      simp [baseCount, m1, m3]
    · simp [baseCount, isMark_toUpperChar c h2, markFirst, h, h2, List.countP_cons]

theorem upper_baseCount (cs : List Char32) :
    baseCount (cs.flatMap upperChars) = baseCount cs + cs.count 0xDF + cs.count 0x345 := by
  induction cs with
  | nil => rfl
  | cons c cs ih =>
    rw [List.flatMap_cons, baseCount_append, (upperChars_count c).1, ih]
    have e : baseCount (c :: cs) = baseCount [c] + baseCount cs := baseCount_append [c] cs
    have e2 : ∀ x : Char32, (c :: cs).count x = [c].count x + cs.count x := fun x => List.count_append (l₁ := [c])
    rw [e, e2, e2]
    omega

theorem upperChars_345 (cs : List Char32) : upperChars 0x345 = [0x399] ∧ markFirst ([0x399] ++ cs.flatMap upperChars) = 0 ∧
    markFirst (0x345 :: cs) = 1 := by
  obtain ⟨m1, m2, m3, -⟩ := mark_345
  have e : toUpperChar 0x345 = 0x399 := by
    apply UInt32.toNat_inj.mp
    rw [C52_to_upper]; exact m2
  refine ⟨?_, ?_, ?_⟩
  · unfold upperChars
    rw [if_neg (by decide), e]
  · rw [List.singleton_append]
    simp only [markFirst, m3]
    rfl
  · simp only [markFirst, m1]
    rfl

/-- C115: to_upper adds one character for every sharp s and for every U+0345 that is not the first code point of the string, and no others:
the latter is a combining mark whose upper case is the letter U+0399. -/
theorem C115_upper_count (s t : Str) (cs : List Char32) (hs : toUtf32 s = .ok cs) (ht : toUpper s = .ok t) (hl : s.length < SIZE_MOD)
    (hl' : t.length < SIZE_MOD) :
    ∃ k, countChars s = .ok k ∧ countChars t = .ok (k + cs.count 0xDF + cs.tail.count 0x345) := by
  have hd := ((C09_to_utf32 s).1 cs).mp hs
  obtain ⟨ds, h1, h2, rfl⟩ := conv_ok C53_to_upper ht
  obtain rfl := hd.unique h1
  refine ⟨_, countChars_decodes hd hl, ?_⟩
  rw [countChars_decodes (upperText_decodes cs h2).1 hl', upper_baseCount]
  congr 1
  cases cs with
  | nil => rfl
  | cons c cs =>
    rw [List.flatMap_cons, List.tail_cons]
    by_cases h : c = 0x345
    · subst h
      obtain ⟨e, e1, e2⟩ := upperChars_345 cs
      have e3 : ((0x345 : Char32) :: cs).count 0x345 = cs.count 0x345 + 1 := List.count_cons_self
      rw [e, e1, e2, e3]
      omega
    · have e3 : (c :: cs).count 0x345 = cs.count 0x345 := List.count_cons_of_ne h
      rw [(upperChars_count c).2 cs _ h, e3]
      omega

theorem letter_not_mark (c : Char32) (h : isLetter c = true) : isMark c = false := by
  rw [isLetter_shift] at h
  rw [isMark_shift]
  have h := Nat.le_of_ble_eq_true h
  cases hb : Nat.ble 5 (charClassShift c).toNat
  · rfl
  · have := Nat.le_of_ble_eq_true hb
    omega

theorem titleChars_count (p : Bool) (c : Char32) :
    baseCount (titleChars p c) = baseCount [c] + (wordStarts isLetter p [c]).count 0xDF ∧
    ∀ cs ds, markFirst (titleChars p c ++ ds) = markFirst (c :: cs) := by
  obtain ⟨m1, m2, m3, m4, m5, m6⟩ := mark_345
  unfold titleChars
  cases hc : isLetter c
  · simp [wordStarts, hc, markFirst]
  · have hm := letter_not_mark c hc
    have h3 : c ≠ 0x345 := by rintro rfl; rw [m1] at hm; cases hm
    simp only [if_true]
    cases p
    · by_cases h : c = 0xDF
      · subst h
        simp [baseCount, m4, m5, m6, wordStarts, hc, markFirst]
      · rw [if_neg (by simp), if_neg ((ne_DF c).mp h)]
        simp [baseCount, isMark_toTitleChar c h3, hm, wordStarts, hc, markFirst, h]
    · simp [baseCount, isMark_toLowerChar c, hm, wordStarts, hc, markFirst]

theorem title_baseCount (p : Bool) (cs : List Char32) :
    baseCount (titleList p cs) = baseCount cs + (wordStarts isLetter p cs).count 0xDF := by
  induction cs generalizing p with
  | nil => rfl
  | cons c cs ih =>
    have e : baseCount (c :: cs) = baseCount [c] + baseCount cs := baseCount_append [c] cs
    have e2 : wordStarts isLetter p (c :: cs) = wordStarts isLetter p [c] ++ wordStarts isLetter (isLetter c) cs := by
      simp [wordStarts]
    rw [titleList, baseCount_append, (titleChars_count p c).1, ih, e, e2, List.count_append]
    omega

/-- C115: to_title adds one character for every sharp s at the beginning of a word (it becomes "Ss"), and no others. -/
theorem C115_title_count (s t : Str) (cs : List Char32) (hs : toUtf32 s = .ok cs) (ht : toTitle s = .ok t) (hl : s.length < SIZE_MOD)
    (hl' : t.length < SIZE_MOD) :
    ∃ k, countChars s = .ok k ∧ countChars t = .ok (k + (wordStarts isLetter false cs).count 0xDF) := by
  obtain ⟨hd, hu, rfl⟩ := title_converts.ok ht hs
  refine ⟨_, countChars_decodes hd hl, ?_⟩
  have hd' : Decodes (enc (titleList false cs)) (titleList false cs) := enc_decodes (titleList_uni _ cs hu)
  rw [countChars_decodes hd' hl', title_baseCount]
  congr 1
  cases cs with
  | nil => rfl
  | cons c cs =>
    rw [titleList, (titleChars_count false c).2 cs]
    omega

/-- C115: to_lower keeps the number of characters and of code points. -/
theorem C115_lower_count (s t : Str) (ht : toLower s = .ok t) (hl : s.length < SIZE_MOD) (hl' : t.length < SIZE_MOD) :
    countChars t = countChars s ∧ countCodepoints t = countCodepoints s := by
  obtain ⟨cs, h1, h2, rfl⟩ := conv_ok C53_to_lower ht
  have hd := (lowerText_decodes cs h2).1
  rw [countChars_decodes hd hl', countChars_decodes h1 hl, C12_count_valid _ _ hd, C12_count_valid _ _ h1, List.length_map]
  refine ⟨?_, rfl⟩
  congr 2
  · simp [baseCount, List.countP_map, Function.comp_def, isMark_toLowerChar]
  · cases cs <;> simp [markFirst, isMark_toLowerChar]

/-- C115: without the proviso: one character, alpha with U+0345, becomes two in upper case, and so does sharp s; in title case only sharp s. -/
theorem C115_false :
    countChars [0xCE, 0xB1, 0xCD, 0x85] = .ok 1 ∧ toUpper [0xCE, 0xB1, 0xCD, 0x85] = .ok [0xCE, 0x91, 0xCE, 0x99] ∧
    countChars [0xCE, 0x91, 0xCE, 0x99] = .ok 2 ∧
    countChars [0xC3, 0x9F] = .ok 1 ∧ toUpper [0xC3, 0x9F] = .ok [0x53, 0x53] ∧ countChars [0x53, 0x53] = .ok 2 ∧
    toTitle [0xCE, 0xB1, 0xCD, 0x85] = .ok [0xCE, 0x91, 0xCD, 0x85] ∧ countChars [0xCE, 0x91, 0xCD, 0x85] = .ok 1 := by
  decide +kernel

/-- "Éa" with a combining acute accent: two characters -/
example : Characters [0x45, 0xCC, 0x81, 0x61] [[0x45, 0xCC, 0x81], [0x61]] ∧
    toLower [0x45, 0xCC, 0x81, 0x61] = .ok [0x65, 0xCC, 0x81, 0x61] ∧
    getCharSubstring [0x45, 0xCC, 0x81, 0x61] 0 1 = .ok [0x45, 0xCC, 0x81] ∧
    reverse [0x65, 0xCC, 0x81, 0x61] = .ok [0x61, 0x65, 0xCC, 0x81] ∧ GoodCharSlice 2 0 1 := by
  refine ⟨?_, by decide +kernel, by decide +kernel, by decide +kernel, by unfold GoodCharSlice; decide⟩
  have hu : Units [([0x45], (0x45 : Char32)), ([0xCC, 0x81], 0x301), ([0x61], 0x61)] := by
    intro x hx
    simp only [List.mem_cons, List.not_mem_nil, or_false] at hx
    rcases hx with rfl | rfl | rfl
    · exact rfcEncode_seq 0x45 (by decide)
    · exact rfcEncode_seq 0x301 (by decide)
    · exact rfcEncode_seq 0x61 (by decide)
  have hg : Groups [[([0x45], (0x45 : Char32)), ([0xCC, 0x81], 0x301)], [([0x61], 0x61)]] := by
    refine ⟨?_, ?_, ?_⟩
    · intro g hg
      simp only [List.mem_cons, List.not_mem_nil, or_false] at hg
      rcases hg with rfl | rfl
      · exact fun x hx => hu x (by simp only [List.mem_cons, List.not_mem_nil, or_false] at hx ⊢; rcases hx with h | h <;> simp [h])
      · exact fun x hx => hu x (by simp only [List.mem_cons, List.not_mem_nil, or_false] at hx ⊢; simp [hx])
    · intro g hg
      simp only [List.mem_cons, List.not_mem_nil, or_false] at hg
      rcases hg with rfl | rfl
      · exact ⟨_, _, rfl, by simp; decide +kernel⟩
      · exact ⟨_, _, rfl, by simp⟩
    · intro g hg
      simp only [List.tail_cons, List.mem_cons, List.not_mem_nil, or_false] at hg
      subst hg
      rintro ⟨x, ms, e, hm⟩
      obtain ⟨rfl, -⟩ := List.cons.inj e
      revert hm; decide +kernel
  exact groups_characters hg

example : toUtf32 [0xCE, 0xB1, 0xCD, 0x85, 0xC3, 0x9F] = .ok [0x3B1, 0x345, 0xDF] ∧
    toUpper [0xCE, 0xB1, 0xCD, 0x85, 0xC3, 0x9F] = .ok [0xCE, 0x91, 0xCE, 0x99, 0x53, 0x53] ∧
    countChars [0xCE, 0xB1, 0xCD, 0x85, 0xC3, 0x9F] = .ok 2 ∧ countChars [0xCE, 0x91, 0xCE, 0x99, 0x53, 0x53] = .ok 4 ∧
    toTitle [0xCE, 0xB1, 0xCD, 0x85, 0xC3, 0x9F] = .ok [0xCE, 0x91, 0xCD, 0x85, 0x53, 0x73] ∧
    wordStarts isLetter false [0x3B1, 0x345, 0xDF] = [0x3B1, 0xDF] := by decide +kernel

end Ystring
