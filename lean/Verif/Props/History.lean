import Verif.Proofs.KeptMore
import Verif.Props.CaseInsensitiveOf
/-
C80: whatever sequence of calls produced a string from valid (well-formed) UTF-8, it is valid (well-formed) UTF-8.
-/
namespace Ystring
open Spec

/-- The closure of a set of strings under the library's functions, by induction over the history of calls. -/
theorem derived_kept {P : Str → Prop} (K : Kept P) {init : Str → Prop} {cp : Char32 → Prop} {more : Prop}
    (hinit : ∀ s, init s → P s) (hcp : ∀ c, cp c → c.toNat ≤ 0x10FFFF → P (rfcEncode c.toNat))
    (hcase : ∀ s t, P s → toLower s = .ok t ∨ toUpper s = .ok t ∨ toTitle s = .ok t → P t)
    (hesc : ∀ s t, P s → Fits s → escapeJson s = .ok t → P t)
    (hmore : more → ∀ s t, P s → (Fits s ∧ unescape s = .ok t) ∨ toComposed s = .ok t ∨
      (∃ g, toDecomposed s (g + 1) = .ok t) → P t)
    {s : Str} (h : Derived init cp more s) : P s := by
  have ins {s r : Str} {k : Int} {gs : List Str} (hP : P s) (hg : gs.flatten = s) (hv : ∀ g ∈ gs, Valid g)
      (c : Char32) (hc : cp c)
      (h : (match boundary gs k with
        | some o => if c.toNat ≤ 0x10FFFF then Except.ok (s.take o ++ rfcEncode c.toNat ++ s.drop o) else .error Err.ystring
        | none => .error Err.ystring) = Except.ok r) : P r := by
    cases hb : boundary gs k with
    | none => rw [hb] at h; simp at h
    | some o =>
      rw [hb] at h
      simp only at h
      obtain ⟨h1, h2⟩ := K.take_drop_off hP hg hv hb
      split at h
      · rename_i hle
        injection h with h; subst h
        exact K.append (K.append h1 (hcp c hc hle)) h2
      · simp at h
  have ins' {s r t : Str} {k : Int} {gs : List Str} (hP : P s) (hg : gs.flatten = s) (hv : ∀ g ∈ gs, Valid g)
      (ht : P t)
      (h : (match boundary gs k with
        | some o => Except.ok (s.take o ++ t ++ s.drop o)
        | none => .error Err.ystring) = Except.ok r) : P r := by
    cases hb : boundary gs k with
    | none => rw [hb] at h; simp at h
    | some o =>
      rw [hb] at h
      simp only at h
      obtain ⟨h1, h2⟩ := K.take_drop_off hP hg hv hb
      injection h with h; subst h
      exact K.append (K.append h1 ht) h2
  have trS {s r : Str} {p : Char32 → Bool} (hP : P s) (hl : Fits s) (h : trimStartWhere s p = .ok r) : P r := by
    obtain ⟨a, t, e, h1, ⟨cs, h2, -⟩, -, h3⟩ := C42_trim_start_where s (K.valid hP) (fits_size hl) p
    rw [h1] at h; injection h with h; subst h
    exact K.right (e ▸ hP) ⟨_, h2⟩
  have trE {s r : Str} {p : Char32 → Bool} (hP : P s) (hl : Fits s) (h : trimEndWhere s p = .ok r) : P r := by
    obtain ⟨a, t, e, h1, -, -, h3⟩ := C42_trim_end_where s (K.valid hP) (fits_size hl) p
    rw [h1] at h; injection h with h; subst h
    exact K.left (e ▸ hP) h3
  have trB {s r : Str} {p : Char32 → Bool} (hP : P s) (hl : Fits s) (h : trimWhere s p = .ok r) : P r := by
    obtain ⟨a, t, b, e, h1, ⟨cs, h2, -⟩, -, -, -, h3⟩ := C42_trim_where s (K.valid hP) (fits_size hl) p
    rw [h1] at h; injection h with h; subst h
    rw [List.append_assoc] at e
    exact K.left (K.right (e ▸ hP) ⟨_, h2⟩) h3
  have lst (l : List Char32) : ∃ p : Char32 → Bool, ∀ c, p c = true ↔ c ∈ l :=
    ⟨fun c => decide (c ∈ l), fun c => by simp⟩
  induction h with
  | input h => exact hinit _ h
  | concat _ _ h1 h2 => exact K.append h1 h2
  | @append s r c _ hc h ih =>
    by_cases hle : c.toNat ≤ 0x10FFFF
    · rw [(C15_append s c).1 hle] at h
      injection h with h; subst h
      exact K.append ih (hcp c hc hle)
    · rw [(C15_append s c).2 (by omega)] at h; simp at h
  | @fromUtf32 x hx =>
    rw [fromUtf32_eq, List.flatMap_def]
    refine K.flatten fun g hg => ?_
    obtain ⟨c, hc, rfl⟩ := List.mem_map.mp hg
    by_cases hle : c.toNat ≤ 0x10FFFF
    · rw [encodeUtf8_rfc c hle]; exact hcp c (hx c hc) hle
    · rw [encodeUtf8_big c (by omega)]; exact K.nil
  | @codepointSubstring s r i j _ hl hij hi hj h hP =>
    obtain ⟨gs, hg, hv⟩ := K.cp_pieces hP
    unfold getCodepointSubstring at h
    cases hr : getCodepointSubstringRange s i j with
    | error e => rw [hr] at h; simp [bind, Except.bind] at h
    | ok sr =>
      rw [hr, bind_ok'] at h
      exact K.substr_ok hP hg.1 hv i j sr (codepointRange_cases hg (fits_npos hl) i j hij sr hr hi hj) h
  | @charSubstring s r i j _ hl hij h hP =>
    obtain ⟨gs, hg, hv⟩ := K.char_pieces hP
    unfold getCharSubstring at h
    cases hr : getCharSubstringRange s i j with
    | error e => rw [hr] at h; simp [bind, Except.bind] at h
    | ok sr =>
      rw [hr, bind_ok'] at h
      exact K.substr_ok hP hg.1 hv i j sr (charRange_cases hg (fits_npos hl) i j hij sr hr) h
  | @insertCodepoint s r k c _ hl hk hc h hP =>
    obtain ⟨gs, hg, hv⟩ := K.cp_pieces hP
    rw [(C32_insert_codepoints_partial s gs hg (fits_npos hl) k hk).1] at h
    exact ins hP hg.1 hv c hc h
  | @insertChar s r k c _ hl hc h hP =>
    obtain ⟨gs, hg, hv⟩ := K.char_pieces hP
    rw [(C32_insert_chars_partial s gs hg (fits_npos hl) k).1] at h
    exact ins hP hg.1 hv c hc h
  | @insertCodepoints s t r k _ hl hk _ h hP ht =>
    obtain ⟨gs, hg, hv⟩ := K.cp_pieces hP
    by_cases h0 : t = []
    · subst h0
      rw [(C32_insert_codepoints_partial s gs hg (fits_npos hl) k hk).2.2] at h
      injection h with h; subst h; exact hP
    · rw [(C32_insert_codepoints_partial s gs hg (fits_npos hl) k hk).2.1 t h0] at h
      exact ins' hP hg.1 hv ht h
  | @insertChars s t r k _ hl _ h hP ht =>
    obtain ⟨gs, hg, hv⟩ := K.char_pieces hP
    by_cases h0 : t = []
    · subst h0
      rw [(C32_insert_chars_partial s gs hg (fits_npos hl) k).2.2] at h
      injection h with h; subst h; exact hP
    · rw [(C32_insert_chars_partial s gs hg (fits_npos hl) k).2.1 t h0] at h
      exact ins' hP hg.1 hv ht h
  | @replaceCodepoints s t r i j _ hl hij hi hj _ h hP ht =>
    obtain ⟨gs, hg, hv⟩ := K.cp_pieces hP
    unfold replaceCodepoints at h
    cases hr : getCodepointSubstringRange s i j with
    | error e => rw [hr] at h; simp [bind, Except.bind] at h
    | ok sr =>
      rw [hr, bind_ok'] at h
      exact K.subst_ok hP ht hg.1 hv (fits_npos hl) i j sr (codepointRange_cases hg (fits_npos hl) i j hij sr hr hi hj) h
  | @replaceChars s t r i j _ hl hij _ h hP ht =>
    obtain ⟨gs, hg, hv⟩ := K.char_pieces hP
    unfold replaceChars at h
    cases hr : getCharSubstringRange s i j with
    | error e => rw [hr] at h; simp [bind, Except.bind] at h
    | ok sr =>
      rw [hr, bind_ok'] at h
      exact K.subst_ok hP ht hg.1 hv (fits_npos hl) i j sr (charRange_cases hg (fits_npos hl) i j hij sr hr) h
  | replace hn _ hl _ _ h hP hf ht => exact K.replace hn hP hl (K.valid hf) ht h
  | replaceCodepoint hn _ hl hb h hP => exact K.replaceCodepoint hn hP hl (hcp _ hb) h
  | ciReplace _ hl _ _ h hP hf ht => exact K.ciReplace hP hl (K.valid hf) ht h
  | reverse _ hl h hP => exact K.reverse hP (fits_size hl) h
  | trimStartWhere _ hl h hP => exact trS hP hl h
  | trimEndWhere _ hl h hP => exact trE hP hl h
  | trimWhere _ hl h hP => exact trB hP hl h
  | @trimStart s r l _ hl h hP =>
    obtain ⟨p, hp⟩ := lst l
    rw [(C42_trim_chars s l p hp).1] at h
    exact trS hP hl h
  | @trimEnd s r l _ hl h hP =>
    obtain ⟨p, hp⟩ := lst l
    rw [(C42_trim_chars s l p hp).2.1] at h
    exact trE hP hl h
  | @trim s r l _ hl h hP =>
    obtain ⟨p, hp⟩ := lst l
    rw [(C42_trim_chars s l p hp).2.2] at h
    exact trB hP hl h
  | @trimDefault s r mem _ hl h hP =>
    unfold trimDefault at h
    obtain ⟨p, hp⟩ := lst (pointerView COMMON_WHITESPACE mem)
    rw [(C42_trim_chars s _ p hp).2.2] at h
    exact trB hP hl h
  | toUpper _ h hP => exact hcase _ _ hP (.inr (.inl h))
  | toLower _ h hP => exact hcase _ _ hP (.inl h)
  | toTitle _ h hP => exact hcase _ _ hP (.inr (.inr h))
  | splitWhere _ hl hf h hp hP => exact K.splitWhere hP hl hf h _ hp
  | @split s sep p ps params _ hl _ h hp hP hs =>
    exact K.splitWhere hP hl (whole_findFirst (K.valid hs)) h _ hp
  | @splitChars s p ps l params _ hl h hp hP =>
    obtain ⟨q, hq⟩ := lst l
    refine K.splitWhere hP hl ?_ h _ hp
    intro s r hs hl h
    simp only [(C20_find_first_of _ l (CodepointSet.mk [] false) 0).1 q hq] at h
    exact whole_findFirstWhere q s r hs hl h
  | @splitLines s p ps mem params _ hl h hp hP =>
    exact K.splitWhere hP hl (whole_findFirstNewline mem) h _ hp
  | @ciSplit s sep p ps params _ hl _ h hp hP hs =>
    exact K.splitWhere hP hl (whole_ciFindFirst (K.valid hs)) h _ hp
  | @ciSplitChars s p ps l params _ hl h hp hP =>
    refine K.splitWhere hP hl ?_ h _ hp
    intro s r hs hl h
    let q : Char32 → Bool := fun c => l.any fun d => simpleUpper c.toNat == simpleUpper d.toNat
    have hq : ∀ c, q c = true ↔ ∃ d ∈ l, simpleUpper c.toNat = simpleUpper d.toNat := fun c => by simp [q]
    simp only [(CI.C45_find_of _ l q hq 0).1] at h
    exact whole_findFirstWhere q s r hs hl h
  | @join ps sep _ _ hp hs => rw [join_eq]; exact K.joinWith hs hp
  | escapeJson _ hl h hP => exact hesc _ _ hP hl h
  | @pop s r c _ h hP =>
    obtain ⟨cs, hs⟩ := K.valid hP
    cases hs with
    | nil => rw [(C13_pop_front []).1] at h; simp at h; rw [h.2]; exact K.nil
    | @cons u t c cs hu ht =>
      rw [(C13_pop_front t).2.1 u c hu] at h
      simp at h
      exact h.2 ▸ K.right hP ⟨_, hu.decodes⟩
  | @remove s r b _ h hP =>
    obtain ⟨cs, hs⟩ := K.valid hP
    cases hs with
    | nil => rw [(C13_remove_front []).1] at h; simp at h; rw [h.2]; exact K.nil
    | @cons u t c cs hu ht =>
      rw [(C13_remove_front t).2.2 u c hu] at h
      simp at h
      exact h.2 ▸ K.right hP ⟨_, hu.decodes⟩
  | @popLast s r c _ h hP =>
    rcases K.last hP with rfl | ⟨t, u, c, rfl, hu, ht⟩
    · rw [(C13_pop_back_partial []).1] at h; simp at h; rw [h.2]; exact K.nil
    · rw [(C13_pop_back_partial t).2.1 u c hu] at h
      simp at h
      exact h.2 ▸ K.left hP ht
  | @removeLast s r c _ h hP =>
    rcases K.last hP with rfl | ⟨t, u, c, rfl, hu, ht⟩
    · rw [(C13_remove_back []).1] at h; simp at h; rw [h.2]; exact K.nil
    · rw [(C13_remove_back t).2.2 u c hu] at h
      simp at h
      exact h.2 ▸ K.left hP ht
  | @replaceInvalid s r c _ h hP =>
    obtain ⟨r', h1, -, h2, -⟩ := C14_replace_invalid s c
    rw [h1] at h; injection h with h; subst h
    rw [h2 ((C08_is_valid_partial s).1.mpr (K.valid hP))]; exact hP
  | unescape hm _ hl h hP => exact hmore hm _ _ hP (.inl ⟨hl, h⟩)
  | toComposed hm _ h hP => exact hmore hm _ _ hP (.inr (.inl h))
  | toDecomposed hm _ h hP => exact hmore hm _ _ hP (.inr (.inr ⟨_, h⟩))

/-- C80 (partial: see `Derived` for the calls that are left out, and `C80_false` for why). However the library's
functions are applied, any number of times and in any order, to valid UTF-8 strings and to arbitrary code points, every
string they return is valid UTF-8. -/
theorem C80_valid_partial {s : Str} (h : Derived Valid (fun _ => True) True s) : Valid s := by
  refine derived_kept kept_valid (fun _ h => h) (fun c _ h => rfcEncode_valid h) (fun s t _ h => (C53_valid s t h).1)
    (fun s t hs hl h => ?_) (fun _ s t hs h => ?_) h
  · obtain ⟨r, h1, h2⟩ := C56_valid s hl
    rw [h1] at h; injection h with h; subst h
    exact h2.mpr hs
  · rcases h with ⟨hl, h⟩ | h | ⟨g, h⟩
    · exact unescape_valid hs hl h
    · rcases C55_outcomes s with ⟨r, h1, -, h2⟩ | ⟨h1, -⟩ | h1
      · rw [h1] at h; injection h with h; subst h; exact h2
      · rw [h1] at h; simp at h
      · rw [h1] at h; simp at h
    · exact ((C54_outcomes s g).1 t h).2.1

/-- C80 (partial, in the same way): the same for well-formed UTF-8 (no overlong forms, surrogates, or values above
U+10FFFF) and code points that are not surrogates, without `unescape` (whose sequences can denote surrogates) and the
normalization functions (C54, C55). -/
theorem C80_wellformed_partial {s : Str}
    (h : Derived WellFormed (fun c => c.toNat < 0xD800 ∨ 0xDFFF < c.toNat) False s) : WellFormed s := by
  refine derived_kept kept_wellFormed (fun _ h => h) (fun c hc h => ?_)
    (fun s t hs h => (C53_valid s t h).2 hs) (fun s t hs hl h => ?_) (fun h => h.elim) h
  · exact ⟨[c.toNat], by simp only [List.mem_singleton]; rintro x rfl; unfold IsScalar; omega, by simp⟩
  · obtain ⟨r, h1, h2⟩ := C56_wellformed s hl hs
    rw [h1] at h; injection h with h; subst h
    exact h2

/-- What is left out returns invalid strings for valid ones: with a start counted from one end and a stop counted from
the other, `get_char_substring`, `replace_chars`, `get_codepoint_substring` and `replace_codepoints` can cut a code
point in two (the string is `aéx`). -/
theorem C80_false : Valid [0x61, 0xC3, 0xA9, 0x78] ∧
    (∃ i j r, 0 ≤ i ∧ j < 0 ∧ getCharSubstring [0x61, 0xC3, 0xA9, 0x78] i j = .ok r ∧ ¬ Valid r) ∧
    (∃ i j r, 0 ≤ i ∧ j < 0 ∧ replaceChars [0x61, 0xC3, 0xA9, 0x78] i j [] = .ok r ∧ ¬ Valid r) ∧
    (∃ i j r, i < 0 ∧ 0 ≤ j ∧ getCodepointSubstring [0x61, 0xC3, 0xA9, 0x78] i j = .ok r ∧ ¬ Valid r) ∧
    (∃ i j r, i < 0 ∧ 0 ≤ j ∧ replaceCodepoints [0x61, 0xC3, 0xA9, 0x78] i j [] = .ok r ∧ ¬ Valid r) := by
  have inv {r : Str} (h : isValidUtf8 r = .ok false) : ¬ Valid r := (C08_is_valid_partial r).2.1.mp h
  refine ⟨(C08_is_valid_partial _).1.mp (by decide +kernel),
    ⟨1, -1, [0xC3], by decide, by decide, by decide +kernel, inv (by decide +kernel)⟩,
    ⟨1, -1, [0x61, 0xA9, 0x78], by decide, by decide, by decide +kernel, inv (by decide +kernel)⟩,
    ⟨-2, 1, [0xC3], by decide, by decide, by decide +kernel, inv (by decide +kernel)⟩,
    ⟨-2, 1, [0x61, 0xA9, 0x78], by decide, by decide, by decide +kernel, inv (by decide +kernel)⟩⟩

/-- A history: `split(",", to_upper("aé,x"))` gives `AÉ`, which reversed and escaped is `ÉA`. -/
example : Derived Valid (fun _ => True) True [0xC3, 0x89, 0x41] := by
  have h0 : Valid [0x61, 0xC3, 0xA9, 0x2C, 0x78] := (C08_is_valid_partial _).1.mp (by decide +kernel)
  have h1 : Valid [0x2C] := (C08_is_valid_partial _).1.mp (by decide +kernel)
  have h2 := Derived.toUpper (cp := fun _ => True) (more := True) (.input h0) (r := [0x41, 0xC3, 0x89, 0x2C, 0x58])
    (by decide +kernel)
  have h3 : Derived Valid (fun _ => True) True [0x41, 0xC3, 0x89] :=
    .split (sep := [0x2C]) (params := {}) (ps := [[0x41, 0xC3, 0x89], [0x58]]) h2 (by unfold Fits; decide) (.input h1)
      (by decide +kernel) (by decide)
  have h4 := Derived.reverse h3 (r := [0xC3, 0x89, 0x41]) (by unfold Fits; decide) (by decide +kernel)
  exact .escapeJson h4 (by unfold Fits; decide) (by decide +kernel)

end Ystring
