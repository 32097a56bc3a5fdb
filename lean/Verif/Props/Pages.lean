import Verif.Props.Edit
/- Property theorems C129: pages of a string, and truncation -/
namespace Ystring
open Spec

theorem slice_page (gs : List Str) (a b : Nat) (h : a ≤ b) : slice gs a b = (gs.take b).drop a := by
  unfold slice
  rw [clampIndex_nonneg, clampIndex_nonneg]
  by_cases h1 : b ≤ gs.length
  · rw [Nat.min_eq_left h1, Nat.min_eq_left (by omega)]
  · rw [Nat.min_eq_right (show gs.length ≤ b by omega), List.take_of_length_le (Nat.le_refl _), List.take_of_length_le (by omega : gs.length ≤ b)]
    by_cases h2 : a ≤ gs.length
    · rw [Nat.min_eq_left h2]
    · rw [Nat.min_eq_right (by omega), List.drop_eq_nil_of_le (Nat.le_refl _), List.drop_eq_nil_of_le (by omega)]

/-- the pages of a list -/
theorem pages_flatten (gs : List Str) (n : Nat) : ∀ K : Nat,
    ((List.range K).map fun k => ((gs.take ((k + 1) * n)).drop (k * n)).flatten).flatten = (gs.take (K * n)).flatten := by
  intro K
  induction K with
  | zero => simp
  | succ K ih =>
    rw [List.range_succ, List.map_append, List.flatten_append, ih]
    simp only [List.map_cons, List.map_nil, List.flatten_cons, List.flatten_nil, List.append_nil]
    rw [← List.flatten_append]
    have : (gs.take ((K + 1) * n)).take (K * n) = gs.take (K * n) := by
      rw [List.take_take, Nat.min_eq_left (Nat.mul_le_mul_right n (Nat.le_succ K))]
    rw [← this, List.take_append_drop]

/-- the number of elements of a page -/
def onPage (total n k : Nat) : Nat := min n (total - k * n)

theorem page_length (gs : List Str) (n k : Nat) : ((gs.take ((k + 1) * n)).drop (k * n)).length = onPage gs.length n k := by
  rw [List.length_drop, List.length_take, Nat.succ_mul]
  unfold onPage
  omega

/-- **C129** Reading a valid string in pages of `n` code points: page `k` is what `get_codepoint_substring(s, k * n, (k + 1) * n)` returns; every page
has `n` code points as long as there are so many, the next one what is left, and the others are empty; one behind the other they are the
beginning of the string, and the whole string when there are enough of them. -/
theorem C129_codepoint_pages (s : Str) (hs : Valid s) (hl : s.length < 2 ^ 63) (n : Nat) :
    ∃ (page : Nat → Str) (total : Nat), countCodepoints s = .ok total ∧
      (∀ k : Nat, getCodepointSubstring s (k * n : Nat) ((k + 1) * n : Nat) = .ok (page k) ∧ Valid (page k) ∧
        countCodepoints (page k) = .ok (min n (total - k * n))) ∧
      (∀ K : Nat, getCodepointSubstring s 0 (K * n : Nat) = .ok ((List.range K).map page).flatten) ∧
      (∀ K : Nat, total ≤ K * n → ((List.range K).map page).flatten = s) := by
  have hl' : s.length < npos := by unfold npos; omega
  have hm : ∀ n : Nat, PTRDIFF_MIN < (n : Int) := by intro n; unfold PTRDIFF_MIN; omega
  obtain ⟨gs, hg⟩ := (C27_codePoints s).1.mp hs
  have hpart : ∀ hs : List Str, (∀ g ∈ hs, g ∈ gs) → CodePoints hs.flatten hs := fun hs h => ⟨rfl, fun g k => hg.2 g (h g k)⟩
  refine ⟨fun k => ((gs.take ((k + 1) * n)).drop (k * n)).flatten, gs.length, (C27_codePoints s).2.2 gs hg, fun k => ?_, fun K => ?_, fun K hK => ?_⟩
  · have hc := hpart ((gs.take ((k + 1) * n)).drop (k * n)) fun g h => List.mem_of_mem_take (List.mem_of_mem_drop h)
    refine ⟨?_, ((C27_codePoints _).1).mpr ⟨_, hc⟩, ?_⟩
    · rw [C29_get_codepoint_substring_partial s gs hg hl' _ _ (hm _) (hm _) (.inl (Int.natCast_nonneg _)),
        slice_page gs _ _ (Nat.mul_le_mul_right n (Nat.le_succ k))]
    · rw [(C27_codePoints _).2.2 _ hc, page_length]; rfl
  · have e : slice gs 0 (K * n : Nat) = gs.take (K * n) := by
      have := slice_page gs 0 (K * n) (Nat.zero_le _)
      rwa [List.drop_zero] at this
    rw [C29_get_codepoint_substring_partial s gs hg hl' 0 _ (hm 0) (hm _) (.inl (Int.le_refl 0)), e, pages_flatten]
  · rw [pages_flatten, List.take_of_length_le hK, hg.1]

/-- **C129** The same for pages of `n` characters and `get_char_substring`. -/
theorem C129_char_pages (s : Str) (hs : Valid s) (hl : s.length < 2 ^ 63) (n : Nat) :
    ∃ (page : Nat → Str) (total : Nat), countChars s = .ok total ∧
      (∀ k : Nat, getCharSubstring s (k * n : Nat) ((k + 1) * n : Nat) = .ok (page k) ∧ Valid (page k) ∧
        countChars (page k) = .ok (min n (total - k * n))) ∧
      (∀ K : Nat, getCharSubstring s 0 (K * n : Nat) = .ok ((List.range K).map page).flatten) ∧
      (∀ K : Nat, total ≤ K * n → ((List.range K).map page).flatten = s) := by
  have hlm : s.length < SIZE_MOD := by unfold SIZE_MOD; omega
  obtain ⟨gs, hg⟩ := (C24_segmentation s).1.mp hs
  have hpart : ∀ a b : Nat, Characters ((gs.take b).drop a).flatten ((gs.take b).drop a) ∧ ((gs.take b).drop a).flatten.length ≤ s.length := by
    intro a b
    have h1 : Characters (gs.take b ++ gs.drop b).flatten (gs.take b ++ gs.drop b) := by
      rw [List.take_append_drop, hg.1]; exact hg
    have h2 := h1.split.1
    have h3 : Characters ((gs.take b).take a ++ (gs.take b).drop a).flatten ((gs.take b).take a ++ (gs.take b).drop a) := by
      rw [List.take_append_drop]; exact h2
    refine ⟨h3.split.2, ?_⟩
    have e : s = ((gs.take b).take a).flatten ++ ((gs.take b).drop a).flatten ++ (gs.drop b).flatten := by
      rw [← List.flatten_append, ← List.flatten_append, List.take_append_drop, List.take_append_drop, hg.1]
    rw [e]
    simp only [List.length_append]
    omega
  refine ⟨fun k => ((gs.take ((k + 1) * n)).drop (k * n)).flatten, gs.length, C25_count_chars s gs hg hlm, fun k => ?_, fun K => ?_, fun K hK => ?_⟩
  · obtain ⟨hc, hc'⟩ := hpart (k * n) ((k + 1) * n)
    refine ⟨?_, ((C24_segmentation _).1).mpr ⟨_, hc⟩, ?_⟩
    · rw [C30_get_char_substring_partial s gs hg hl _ _ (.inl (Int.natCast_nonneg _)),
        slice_page gs _ _ (Nat.mul_le_mul_right n (Nat.le_succ k))]
    · rw [C25_count_chars _ _ hc (by omega), page_length]; rfl
  · have e : slice gs 0 (K * n : Nat) = gs.take (K * n) := by
      have := slice_page gs 0 (K * n) (Nat.zero_le _)
      rwa [List.drop_zero] at this
    rw [C30_get_char_substring_partial s gs hg hl 0 _ (.inl (Int.natCast_nonneg _)), e, pages_flatten]
  · rw [pages_flatten, List.take_of_length_le hK, hg.1]

/-- `aé€` (as `e` and U+0301) and `x` in pages of two: three pages of code points, two of characters -/
example : Valid [0x61, 0x65, 0xCC, 0x81, 0xE2, 0x82, 0xAC, 0x78] ∧
    (getCodepointSubstring [0x61, 0x65, 0xCC, 0x81, 0xE2, 0x82, 0xAC, 0x78] 0 2 = .ok [0x61, 0x65] ∧
      getCodepointSubstring [0x61, 0x65, 0xCC, 0x81, 0xE2, 0x82, 0xAC, 0x78] 2 4 = .ok [0xCC, 0x81, 0xE2, 0x82, 0xAC] ∧
      getCodepointSubstring [0x61, 0x65, 0xCC, 0x81, 0xE2, 0x82, 0xAC, 0x78] 4 6 = .ok [0x78]) ∧
    getCharSubstring [0x61, 0x65, 0xCC, 0x81, 0xE2, 0x82, 0xAC, 0x78] 0 2 = .ok [0x61, 0x65, 0xCC, 0x81] ∧
      getCharSubstring [0x61, 0x65, 0xCC, 0x81, 0xE2, 0x82, 0xAC, 0x78] 2 4 = .ok [0xE2, 0x82, 0xAC, 0x78] := by
  refine ⟨(C08_is_valid_partial _).1.mp (by decide +kernel), ⟨?_, ?_, ?_⟩, ?_, ?_⟩ <;> decide +kernel

/-! ### Truncation -/

/-- **C129** `get_codepoint_substring(s, 0, n)` is the longest valid beginning of a valid string that has at most `n` code points. -/
theorem C129_codepoint_truncate (s : Str) (hs : Valid s) (hl : s.length < 2 ^ 63) (n : Nat) :
    ∃ (t : Str) (m : Nat), getCodepointSubstring s 0 n = .ok t ∧ t <+: s ∧ Valid t ∧ countCodepoints t = .ok m ∧ m ≤ n ∧
      ∀ p k, p <+: s → Valid p → countCodepoints p = .ok k → k ≤ n → p <+: t := by
  have hl' : s.length < npos := by unfold npos; omega
  have hm : ∀ n : Nat, PTRDIFF_MIN < (n : Int) := by intro n; unfold PTRDIFF_MIN; omega
  obtain ⟨gs, hg⟩ := (C27_codePoints s).1.mp hs
  have e : slice gs 0 n = gs.take n := by
    have := slice_page gs 0 n (Nat.zero_le _)
    rwa [List.drop_zero] at this
  have hc : CodePoints (gs.take n).flatten (gs.take n) := ⟨rfl, fun g k => hg.2 g (List.mem_of_mem_take k)⟩
  have hpre : ∀ a b : Nat, a ≤ b → (gs.take a).flatten <+: (gs.take b).flatten := by
    intro a b h
    refine ⟨((gs.take b).drop a).flatten, ?_⟩
    have : gs.take a = (gs.take b).take a := by rw [List.take_take, Nat.min_eq_left h]
    rw [this, ← List.flatten_append, List.take_append_drop]
  refine ⟨(gs.take n).flatten, (gs.take n).length, ?_, ?_, ((C27_codePoints _).1).mpr ⟨_, hc⟩, (C27_codePoints _).2.2 _ hc, ?_, ?_⟩
  · rw [C29_get_codepoint_substring_partial s gs hg hl' 0 n (hm 0) (hm n) (.inl (Int.le_refl 0)), e]
  · refine ⟨(gs.drop n).flatten, ?_⟩
    rw [← List.flatten_append, List.take_append_drop, hg.1]
  · rw [List.length_take]; omega
  · rintro p k ⟨q, rfl⟩ hp hk hkn
    obtain ⟨as, ha⟩ := (C27_codePoints p).1.mp hp
    obtain ⟨bs, hb⟩ := (C27_codePoints q).1.mp ((valid_append_iff hp q).mp hs)
    have hab : CodePoints (p ++ q) (as ++ bs) := ⟨by rw [List.flatten_append, ha.1, hb.1], fun g h => by
      rcases List.mem_append.mp h with h | h
      · exact ha.2 g h
      · exact hb.2 g h⟩
    have hgs : gs = as ++ bs := (C27_codePoints _).2.1 _ _ hg hab
    have hlen : as.length ≤ n := by
      have := (C27_codePoints p).2.2 as ha
      rw [this] at hk
      injection hk with hk
      omega
    have : p = (gs.take as.length).flatten := by rw [hgs, List.take_left, ha.1]
    rw [this]
    exact hpre _ _ hlen

/-- the characters of two strings, one behind the other: the last one of the first may continue in the second -/
theorem characters_joined {p q : Str} {as bs : List Str} (ha : Characters p as) (hb : Characters q bs) :
    ∃ gs, Characters (p ++ q) gs ∧ p <+: (gs.take as.length).flatten := by
  cases bs with
  | nil =>
    have : q = [] := hb.1.symm
    subst this
    exact ⟨as, by rw [List.append_nil]; exact ha, by rw [List.take_of_length_le (Nat.le_refl _), ha.1]; exact List.prefix_refl _⟩
  | cons b bs =>
    by_cases hn : as = []
    · subst hn
      have : p = [] := ha.1.symm
      subst this
      exact ⟨b :: bs, hb, List.nil_prefix⟩
    by_cases hmk : StartsWithMark b
    · obtain ⟨init, a, rfl⟩ : ∃ init a, as = init ++ [a] := ⟨as.dropLast, as.getLast hn, (List.dropLast_concat_getLast hn).symm⟩
      have hab : IsCharacter (a ++ b) := by
        obtain ⟨c, ms, h1, h2⟩ := ha.2.1 a (by simp)
        obtain ⟨c', ms', h3, h4⟩ := hb.2.1 b (by simp)
        obtain ⟨m, cs, h5, h6⟩ := hmk
        have := h3.unique h5
        injection this with e1 e2
        subst e1
        refine ⟨c, ms ++ c' :: ms', ?_, ?_⟩
        · have := h1.append h3
          rwa [List.cons_append] at this
        · intro x hx
          rcases List.mem_append.mp hx with hx | hx
          · exact h2 x hx
          · rcases List.mem_cons.mp hx with rfl | hx
            · exact h6
            · exact h4 x hx
      refine ⟨init ++ (a ++ b) :: bs, ⟨?_, ?_, ?_⟩, ?_⟩
      · rw [← ha.1, ← hb.1]
        simp
      · intro g hg
        rcases List.mem_append.mp hg with hg | hg
        · exact ha.2.1 g (by simp [hg])
        · rcases List.mem_cons.mp hg with rfl | hg
          · exact hab
          · exact hb.2.1 g (by simp [hg])
      · intro g hg
        cases init with
        | nil => exact hb.2.2 g hg
        | cons i init =>
          simp only [List.cons_append, List.tail_cons, List.mem_append, List.mem_cons] at hg
          rcases hg with hg | rfl | hg
          · exact ha.2.2 g (by simp [hg])
          · rintro ⟨m, cs, h5, h6⟩
            refine ha.2.2 a (by simp) ?_
            obtain ⟨c, ms, h1, h2⟩ := ha.2.1 a (by simp)
            obtain ⟨c', ms', h3, h4⟩ := hb.2.1 b (by simp)
            have := (h1.append h3).unique h5
            rw [List.cons_append] at this
            injection this with e1 e2
            subst e1
            exact ⟨c, ms, h1, h6⟩
          · exact hb.2.2 g hg
      · rw [List.length_append, List.length_singleton, List.take_length_add_append]
        refine ⟨b, ?_⟩
        rw [← ha.1]
        simp
    · refine ⟨as ++ b :: bs, ⟨by rw [List.flatten_append, ha.1, hb.1], ?_, ?_⟩, by rw [List.take_left, ha.1]; exact List.prefix_refl _⟩
      · intro g hg
        rcases List.mem_append.mp hg with hg | hg
        · exact ha.2.1 g hg
        · exact hb.2.1 g hg
      · intro g hg
        cases as with
        | nil => exact absurd rfl hn
        | cons a as =>
          simp only [List.cons_append, List.tail_cons, List.mem_append, List.mem_cons] at hg
          rcases hg with hg | rfl | hg
          · exact ha.2.2 g hg
          · exact hmk
          · exact hb.2.2 g hg

/-- **C129** `get_char_substring(s, 0, n)` has at most `n` characters, and every valid beginning of the string with at most `n` characters is a beginning
of it. -/
theorem C129_char_truncate (s : Str) (hs : Valid s) (hl : s.length < 2 ^ 63) (n : Nat) :
    ∃ (t : Str) (m : Nat), getCharSubstring s 0 n = .ok t ∧ t <+: s ∧ Valid t ∧ countChars t = .ok m ∧ m ≤ n ∧
      ∀ p k, p <+: s → Valid p → countChars p = .ok k → k ≤ n → p <+: t := by
  have hlm : s.length < SIZE_MOD := by unfold SIZE_MOD; omega
  obtain ⟨gs, hg⟩ := (C24_segmentation s).1.mp hs
  have e : slice gs 0 n = gs.take n := by
    have := slice_page gs 0 n (Nat.zero_le _)
    rwa [List.drop_zero] at this
  have hc : Characters (gs.take n).flatten (gs.take n) := by
    have h1 : Characters (gs.take n ++ gs.drop n).flatten (gs.take n ++ gs.drop n) := by
      rw [List.take_append_drop, hg.1]; exact hg
    exact h1.split.1
  have hpre : ∀ a b : Nat, a ≤ b → (gs.take a).flatten <+: (gs.take b).flatten := by
    intro a b h
    refine ⟨((gs.take b).drop a).flatten, ?_⟩
    have : gs.take a = (gs.take b).take a := by rw [List.take_take, Nat.min_eq_left h]
    rw [this, ← List.flatten_append, List.take_append_drop]
  have hts : (gs.take n).flatten <+: s := ⟨(gs.drop n).flatten, by rw [← List.flatten_append, List.take_append_drop, hg.1]⟩
  refine ⟨(gs.take n).flatten, (gs.take n).length, ?_, hts, ((C24_segmentation _).1).mpr ⟨_, hc⟩, ?_, ?_, ?_⟩
  · rw [C30_get_char_substring_partial s gs hg hl 0 n (.inl (Int.natCast_nonneg _)), e]
  · exact C25_count_chars _ _ hc (by have := hts.length_le; omega)
  · rw [List.length_take]; omega
  · rintro p k ⟨q, rfl⟩ hp hk hkn
    obtain ⟨as, ha⟩ := (C24_segmentation p).1.mp hp
    obtain ⟨bs, hb⟩ := (C24_segmentation q).1.mp ((valid_append_iff hp q).mp hs)
    obtain ⟨gs', h1, h2⟩ := characters_joined ha hb
    have : gs' = gs := (C24_segmentation _).2.1 _ _ h1 hg
    subst this
    have hlen : as.length ≤ n := by
      rw [C25_count_chars p as ha (by rw [List.length_append] at hlm; omega)] at hk
      injection hk with hk
      omega
    exact h2.trans (hpre _ _ hlen)

/-- `aé` (as `e` and U+0301) and `x`, cut to two characters and to two code points; the beginning `ae` has two characters and is a beginning of the first. -/
example : getCharSubstring [0x61, 0x65, 0xCC, 0x81, 0x78] 0 2 = .ok [0x61, 0x65, 0xCC, 0x81] ∧
    getCodepointSubstring [0x61, 0x65, 0xCC, 0x81, 0x78] 0 2 = .ok [0x61, 0x65] ∧ countChars [0x61, 0x65] = .ok 2 := by
  refine ⟨?_, ?_, ?_⟩ <;> decide +kernel

end Ystring
