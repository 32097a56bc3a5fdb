import Verif.Props.Edit
import Verif.Props.Chars
/-
Property theorems C116: substrings can be read, written, written again and restored (the laws of a lens), by code points and by characters; edits at
different places commute.
-/
namespace Ystring
open Spec

/-! ### For any way to cut strings into pieces -/

structure Editing (P : Str → List Str → Prop) (get : Str → Int → Int → Res Str) (put : Str → Int → Int → Str → Res Str) : Prop where
  flat : ∀ {s gs}, P s gs → gs.flatten = s
  get_eq : ∀ {s gs}, P s gs → s.length < 2 ^ 63 → ∀ {i j : Nat}, i ≤ j → j ≤ gs.length → j < 2 ^ 63 → get s i j = .ok ((gs.take j).drop i).flatten
  put_eq : ∀ {s gs}, P s gs → s.length < 2 ^ 63 → ∀ {i j : Nat}, i ≤ j → j ≤ gs.length → ∀ t,
    put s i j t = .ok ((gs.take i).flatten ++ t ++ (gs.drop j).flatten)

variable {P : Str → List Str → Prop} {get : Str → Int → Int → Res Str} {put : Str → Int → Int → Str → Res Str}

theorem mid_take (a x b : List Str) (i : Nat) (h : a.length = i) : (a ++ x ++ b).take i = a := by
  rw [List.append_assoc, List.take_append_of_le_length (by omega), List.take_of_length_le (by omega)]

theorem mid_drop (a x b : List Str) (i : Nat) (h : a.length = i) : (a ++ x ++ b).drop (i + x.length) = b := by
  have : i + x.length = (a ++ x).length := by simp [h]
  rw [this, List.drop_left]

theorem mid_slice (a x b : List Str) (i : Nat) (h : a.length = i) : ((a ++ x ++ b).take (i + x.length)).drop i = x := by
  have : i + x.length = (a ++ x).length := by simp [h]
  rw [this, List.take_left, ← h, List.drop_left]

theorem Editing.get_put (E : Editing P get put) {s : Str} {gs : List Str} (h : P s gs) (hl : s.length < 2 ^ 63) {i j : Nat} (hij : i ≤ j)
    (hj : j ≤ gs.length) (hj' : j < 2 ^ 63) : ∃ old, get s i j = .ok old ∧ put s i j old = .ok s := by
  refine ⟨_, E.get_eq h hl hij hj hj', ?_⟩
  rw [E.put_eq h hl hij hj, ← List.flatten_append, ← List.flatten_append]
  congr 1
  have e : gs.take i = (gs.take j).take i := by rw [List.take_take, Nat.min_eq_left hij]
  rw [e, List.take_append_drop, List.take_append_drop, E.flat h]

theorem Editing.put_put (E : Editing P get put) {s x r : Str} {gs xs : List Str} (h : P s gs) (hl : s.length < 2 ^ 63) (hx : xs.flatten = x) {i j : Nat}
    (hij : i ≤ j) (hj : j ≤ gs.length) (hj' : i + xs.length < 2 ^ 63) (hr : put s i j x = .ok r) (hr' : r.length < 2 ^ 63)
    (hp : ∀ r, r = (gs.take i ++ xs ++ gs.drop j).flatten → P r (gs.take i ++ xs ++ gs.drop j)) :
    get r i (i + xs.length : Nat) = .ok x ∧ ∀ y, put r i (i + xs.length : Nat) y = put s i j y := by
  rw [E.put_eq h hl hij hj] at hr
  injection hr with hr
  have e : r = (gs.take i ++ xs ++ gs.drop j).flatten := by rw [← hr]; simp [hx]
  have hP := hp r e
  have hn : (gs.take i).length = i := by rw [List.length_take]; omega
  have hle : i + xs.length ≤ (gs.take i ++ xs ++ gs.drop j).length := by simp only [List.length_append, hn]; omega
  constructor
  · rw [E.get_eq hP hr' (Nat.le_add_right i xs.length) hle hj', mid_slice _ _ _ _ hn, hx]
  · intro y
    rw [E.put_eq hP hr' (Nat.le_add_right i xs.length) hle, E.put_eq h hl hij hj, mid_take _ _ _ _ hn, mid_drop _ _ _ _ hn]

theorem take_drop_len {α : Type} (l : List α) (a b : Nat) (h1 : a ≤ b) (h2 : b ≤ l.length) : l.drop a = (l.take b).drop a ++ l.drop b := by
  conv => lhs; rw [← List.take_append_drop b l]
  rw [List.drop_append_of_le_length (by simp; omega)]

theorem Editing.commute (E : Editing P get put) {s x y r q : Str} {gs xs ys : List Str} (h : P s gs) (hl : s.length < 2 ^ 63) (hx : xs.flatten = x)
    (hy : ys.flatten = y) {i j k l : Nat} (hij : i ≤ j) (hjk : j ≤ k) (hkl : k ≤ l) (hll : l ≤ gs.length)
    (hr : put s i j x = .ok r) (hr' : r.length < 2 ^ 63) (hq : put s k l y = .ok q) (hq' : q.length < 2 ^ 63)
    (hp : ∀ r, r = (gs.take i ++ xs ++ gs.drop j).flatten → P r (gs.take i ++ xs ++ gs.drop j))
    (hp' : ∀ r, r = (gs.take k ++ ys ++ gs.drop l).flatten → P r (gs.take k ++ ys ++ gs.drop l)) :
    put q i j x = put r (k - j + (i + xs.length) : Nat) (l - j + (i + xs.length) : Nat) y := by
  rw [E.put_eq h hl hij (by omega)] at hr
  rw [E.put_eq h hl hkl hll] at hq
  injection hr with hr
  injection hq with hq
  have hP := hp r (by rw [← hr]; simp [hx])
  have hQ := hp' q (by rw [← hq]; simp [hy])
  have hn : (gs.take i).length = i := by rw [List.length_take]; omega
  have hn' : (gs.take k).length = k := by rw [List.length_take]; omega
  rw [E.put_eq hQ hq' hij (by simp only [List.length_append, hn']; omega)]
  rw [E.put_eq hP hr' (by omega) (by simp only [List.length_append, hn, List.length_drop]; omega)]
  -- what is before, between and behind the two places
  have e1 : (gs.take k ++ ys ++ gs.drop l).take i = gs.take i := by
    rw [List.append_assoc, List.take_append_of_le_length (by omega), List.take_take, Nat.min_eq_left (by omega)]
  have e2 : (gs.take k ++ ys ++ gs.drop l).drop j = (gs.take k).drop j ++ ys ++ gs.drop l := by
    rw [List.append_assoc, List.drop_append_of_le_length (by omega), List.append_assoc]
  have e3 : (gs.take i ++ xs ++ gs.drop j).take (k - j + (i + xs.length)) = gs.take i ++ xs ++ (gs.take k).drop j := by
    have hc : (gs.take i ++ xs).length = i + xs.length := by simp [hn]
    rw [Nat.add_comm, ← hc, List.take_length_add_append, List.take_drop]
    congr 3; omega
  have e4 : (gs.take i ++ xs ++ gs.drop j).drop (l - j + (i + xs.length)) = gs.drop l := by
    have hc : (gs.take i ++ xs).length = i + xs.length := by simp [hn]
    rw [Nat.add_comm, ← hc, List.drop_length_add_append, List.drop_drop]
    congr 1; omega
  rw [e1, e2, e3, e4]
  simp [hx, hy]

/-! ### Code points and characters -/

theorem codepoint_editing : Editing CodePoints (fun s i j => getCodepointSubstring s i j) (fun s i j t => replaceCodepoints s i j t) where
  flat h := h.1
  get_eq h hl i j hij hj hj' := by
    have hn : ¬ (i : Int) ≤ PTRDIFF_MIN := by unfold PTRDIFF_MIN; omega
    have hn' : ¬ (j : Int) ≤ PTRDIFF_MIN := by unfold PTRDIFF_MIN; omega
    rw [C29_get_codepoint_substring_partial _ _ h (by unfold npos; omega) i j (by omega) (by omega) (.inl (by omega))]
    unfold slice
    rw [clampIndex_nonneg, clampIndex_nonneg, Nat.min_eq_left hj, Nat.min_eq_left (by omega)]
  put_eq h hl i j hij hj t := by
    have hn : ¬ (i : Int) ≤ PTRDIFF_MIN := by unfold PTRDIFF_MIN; omega
    have hn' : ¬ (j : Int) ≤ PTRDIFF_MIN := by unfold PTRDIFF_MIN; omega
    rw [C31_replace_codepoints_partial _ _ h (by unfold npos; omega) i j (by omega) (by omega) (.inl (by omega))]
    unfold splice
    rw [clampIndex_nonneg, clampIndex_nonneg, Nat.min_eq_left hj, Nat.min_eq_left (by omega), Nat.max_eq_right hij]

theorem char_editing : Editing Characters (fun s i j => getCharSubstring s i j) (fun s i j t => replaceChars s i j t) where
  flat h := h.1
  get_eq h hl i j hij hj hj' := by
    rw [C30_get_char_substring_partial _ _ h hl i j (.inl (by omega))]
    unfold slice
    rw [clampIndex_nonneg, clampIndex_nonneg, Nat.min_eq_left hj, Nat.min_eq_left (by omega)]
  put_eq h hl i j hij hj t := by
    rw [C31_replace_chars_partial _ _ h (by unfold npos; omega) i j (.inl (by omega))]
    unfold splice
    rw [clampIndex_nonneg, clampIndex_nonneg, Nat.min_eq_left hj, Nat.min_eq_left (by omega), Nat.max_eq_right hij]

theorem codePoints_edit {s x : Str} {gs xs : List Str} (h : CodePoints s gs) (hx : CodePoints x xs) (i j : Nat) (r : Str)
    (e : r = (gs.take i ++ xs ++ gs.drop j).flatten) : CodePoints r (gs.take i ++ xs ++ gs.drop j) := by
  refine ⟨e.symm, fun g hg => ?_⟩
  rcases List.mem_append.mp hg with hg | hg
  · rcases List.mem_append.mp hg with hg | hg
    · exact h.2 g (List.mem_of_mem_take hg)
    · exact hx.2 g hg
  · exact h.2 g (List.mem_of_mem_drop hg)

/-- Replacing the characters `i .. j` of `s` by `x` attaches no mark to a character it did not belong to: `x` does not begin with a combining mark unless it
becomes the beginning of the string, and what follows it does not. -/
def CharEdit (s : Str) (i j : Nat) (x : Str) : Prop := (i = 0 ∨ ¬ StartsWithMark x) ∧ (0 < j ∨ x = [] ∨ ¬ StartsWithMark s)

theorem tail_append {α : Type} {q : α → Prop} {a b : List α} (ha : ∀ g ∈ a.tail, q g) (hb : ∀ g ∈ b.tail, q g) (h : a = [] ∨ ∀ g, b.head? = some g → q g) :
    ∀ g ∈ (a ++ b).tail, q g := by
  cases a with
  | nil => exact hb
  | cons c a =>
    intro g hg
    rw [List.cons_append, List.tail_cons] at hg
    rcases List.mem_append.mp hg with hg | hg
    · exact ha g hg
    · rcases h with h | h
      · cases h
      · cases b with
        | nil => cases hg
        | cons d b =>
          rcases List.mem_cons.mp hg with e | hg
          · exact h g (by rw [e]; rfl)
          · exact hb g hg

theorem head_mark {s : Str} {gs : List Str} (h : Characters s gs) {g : Str} (hg : gs.head? = some g) (hm : StartsWithMark g) : StartsWithMark s := by
  obtain ⟨m, cs, hd, hmm⟩ := hm
  obtain ⟨hs, rfl⟩ : ∃ hs, gs = g :: hs := by
    cases gs with
    | nil => cases hg
    | cons a b => injection hg with e; exact ⟨b, by rw [e]⟩
  have hv : ∀ l : List Str, (∀ x ∈ l, IsCharacter x) → ∃ ds, Decodes l.flatten ds := by
    intro l
    induction l with
    | nil => intro _; exact ⟨[], .nil⟩
    | cons x l ih =>
      intro hl
      obtain ⟨ds, h2⟩ := ih fun y hy => hl y (List.mem_cons_of_mem _ hy)
      obtain ⟨c, ms, h3, -⟩ := hl x List.mem_cons_self
      exact ⟨_, h3.append h2⟩
  obtain ⟨ds, h2⟩ := hv hs fun x hx => h.2.1 x (List.mem_cons_of_mem _ hx)
  refine ⟨m, cs ++ ds, ?_, hmm⟩
  rw [← h.1]
  exact hd.append h2

theorem tail_take {α : Type} (l : List α) (i : Nat) {g : α} (h : g ∈ (l.take i).tail) : g ∈ l.tail := by
  cases l with
  | nil => simp at h
  | cons a l =>
    cases i with
    | zero => simp at h
    | succ i => exact List.mem_of_mem_take h

theorem tail_drop {α : Type} (l : List α) (i : Nat) {g : α} (h : g ∈ (l.drop i).tail) : g ∈ l.tail := by
  rw [List.tail_drop, ← Nat.add_comm, ← List.drop_drop, List.drop_one] at h
  exact List.mem_of_mem_drop h

theorem head_drop {α : Type} (l : List α) (i : Nat) (hi : 0 < i) {g : α} (h : (l.drop i).head? = some g) : g ∈ l.tail := by
  obtain ⟨k, rfl⟩ : ∃ k, i = 1 + k := ⟨i - 1, by omega⟩
  rw [← List.drop_drop, List.drop_one] at h
  exact List.mem_of_mem_drop (List.mem_of_mem_head? h)

theorem characters_edit {s x : Str} {gs xs : List Str} (h : Characters s gs) (hx : Characters x xs) (i j : Nat) (hij : i ≤ j) (hc : CharEdit s i j x)
    (r : Str) (e : r = (gs.take i ++ xs ++ gs.drop j).flatten) : Characters r (gs.take i ++ xs ++ gs.drop j) := by
  refine ⟨e.symm, fun g hg => ?_, ?_⟩
  · rcases List.mem_append.mp hg with hg | hg
    · rcases List.mem_append.mp hg with hg | hg
      · exact h.2.1 g (List.mem_of_mem_take hg)
      · exact hx.2.1 g hg
    · exact h.2.1 g (List.mem_of_mem_drop hg)
  · apply tail_append
    · apply tail_append
      · exact fun g hg => h.2.2 g (tail_take _ _ hg)
      · exact hx.2.2
      · rcases hc.1 with h0 | h0
        · left; rw [h0]; rfl
        · right; exact fun g hg hm => h0 (head_mark hx hg hm)
    · exact fun g hg => h.2.2 g (tail_drop _ _ hg)
    · by_cases hj : 0 < j
      · right; exact fun g hg => h.2.2 g (head_drop _ _ hj hg)
      · rcases hc.2 with h0 | h0 | h0
        · exact absurd h0 hj
        · left
          have : xs = [] := by
            cases xs with
            | nil => rfl
            | cons a b =>
              exfalso
              have := hx.1
              rw [h0, List.flatten_cons] at this
              exact IsCharacter.ne_nil (hx.2.1 a List.mem_cons_self) (List.append_eq_nil_iff.mp this).1
          rw [this, show i = 0 by omega]; rfl
        · right
          rw [show j = 0 by omega]
          exact fun g hg hm => h0 (head_mark h hg hm)

theorem flatten_len {gs : List Str} (h : ∀ g ∈ gs, g ≠ []) : gs.length ≤ gs.flatten.length := by
  induction gs with
  | nil => simp
  | cons g gs ih =>
    have h1 := ih fun x hx => h x (List.mem_cons_of_mem _ hx)
    have h2 := List.length_pos_iff.mpr (h g List.mem_cons_self)
    simp only [List.length_cons, List.flatten_cons, List.length_append]
    omega

theorem cp_count {s : Str} (hs : Valid s) : ∃ gs, CodePoints s gs ∧ countCodepoints s = .ok gs.length ∧ gs.length ≤ s.length := by
  obtain ⟨cs, hd⟩ := hs
  obtain ⟨gs, h, e, -⟩ := pieces_of hd
  refine ⟨gs, h, by rw [C12_count_valid s cs hd, e], ?_⟩
  rw [← h.1]
  exact flatten_len fun g hg => by obtain ⟨c, hc⟩ := h.2 g hg; exact hc.ne_nil

theorem char_count {s : Str} (hs : Valid s) (hl : s.length < SIZE_MOD) :
    ∃ gs, Characters s gs ∧ countChars s = .ok gs.length ∧ gs.length ≤ s.length := by
  obtain ⟨gs, h⟩ := (C24_segmentation s).1.mp hs
  refine ⟨gs, h, C25_count_chars s gs h hl, ?_⟩
  rw [← h.1]
  exact flatten_len fun g hg => IsCharacter.ne_nil (h.2.1 g hg)

/-! ### C116 -/

/-- C116: what was read can be written back. -/
theorem C116_get_put (s : Str) (hs : Valid s) (hl : s.length < 2 ^ 63) (i j : Nat) (hij : i ≤ j) :
    (∀ m, countCodepoints s = .ok m → j ≤ m → ∃ old, getCodepointSubstring s i j = .ok old ∧ replaceCodepoints s i j old = .ok s) ∧
    (∀ m, countChars s = .ok m → j ≤ m → ∃ old, getCharSubstring s i j = .ok old ∧ replaceChars s i j old = .ok s) := by
  constructor
  · intro m hm hj
    obtain ⟨gs, h, hg, hle⟩ := cp_count hs
    rw [hm] at hg; injection hg with hg
    exact codepoint_editing.get_put h hl hij (by omega) (by omega)
  · intro m hm hj
    obtain ⟨gs, h, hg, hle⟩ := char_count hs (by unfold SIZE_MOD; omega)
    rw [hm] at hg; injection hg with hg
    exact char_editing.get_put h hl hij (by omega) (by omega)

theorem edit_len {s x : Str} {gs : List Str} (h : gs.flatten = s) {i j : Nat} (hij : i ≤ j) (hj : j ≤ gs.length) (hl : s.length + x.length < 2 ^ 63) :
    ((gs.take i).flatten ++ x ++ (gs.drop j).flatten).length < 2 ^ 63 := by
  have e : gs = gs.take i ++ ((gs.take j).drop i ++ gs.drop j) := by
    conv => lhs; rw [← List.take_append_drop i gs, take_drop_len gs i j hij hj]
  have e2 := congrArg (fun l => l.flatten.length) e
  simp only [List.flatten_append, List.length_append, h] at e2
  simp only [List.length_append]
  omega

/-- C116: what was written can be read; writing again replaces what was written; so writing what was there before restores the string. Here `n` is the number
of code points of what is written. -/
theorem C116_put_codepoints (s x : Str) (hs : Valid s) (hx : Valid x) (hl : s.length + x.length < 2 ^ 63) (i j m n : Nat) (hij : i ≤ j)
    (hm : countCodepoints s = .ok m) (hj : j ≤ m) (hn : countCodepoints x = .ok n) :
    ∃ r, replaceCodepoints s i j x = .ok r ∧ getCodepointSubstring r i (i + n : Nat) = .ok x ∧
      (∀ y, replaceCodepoints r i (i + n : Nat) y = replaceCodepoints s i j y) ∧
      ∃ old, getCodepointSubstring s i j = .ok old ∧ replaceCodepoints r i (i + n : Nat) old = .ok s := by
  obtain ⟨gs, h, hg, hle⟩ := cp_count hs
  obtain ⟨xs, h2, hg2, hle2⟩ := cp_count hx
  rw [hm] at hg; injection hg with hg
  rw [hn] at hg2; injection hg2 with hg2
  subst hg2
  obtain ⟨old, ho1, ho2⟩ := codepoint_editing.get_put h (by omega) hij (by omega) (by omega)
  have hr := codepoint_editing.put_eq h (by omega) hij (by omega) x
  obtain ⟨p1, p2⟩ := codepoint_editing.put_put h (by omega) h2.1 hij (by omega) (by omega) hr (edit_len h.1 hij (by omega) hl) (fun r e => codePoints_edit h h2 i j r e)
  exact ⟨_, hr, p1, p2, old, ho1, (p2 old).trans ho2⟩

/-- C116: what was written can be read; writing again replaces what was written; so writing what was there before restores the string. Here `n` is the number
of characters of what is written. -/
theorem C116_put_chars (s x : Str) (hs : Valid s) (hx : Valid x) (hl : s.length + x.length < 2 ^ 63) (i j m n : Nat) (hij : i ≤ j)
    (hm : countChars s = .ok m) (hj : j ≤ m) (hn : countChars x = .ok n) (hc : CharEdit s i j x) :
    ∃ r, replaceChars s i j x = .ok r ∧ getCharSubstring r i (i + n : Nat) = .ok x ∧
      (∀ y, replaceChars r i (i + n : Nat) y = replaceChars s i j y) ∧
      ∃ old, getCharSubstring s i j = .ok old ∧ replaceChars r i (i + n : Nat) old = .ok s := by
  obtain ⟨gs, h, hg, hle⟩ := char_count hs (by unfold SIZE_MOD; omega)
  obtain ⟨xs, h2, hg2, hle2⟩ := char_count hx (by unfold SIZE_MOD; omega)
  rw [hm] at hg; injection hg with hg
  rw [hn] at hg2; injection hg2 with hg2
  subst hg2
  obtain ⟨old, ho1, ho2⟩ := char_editing.get_put h (by omega) hij (by omega) (by omega)
  have hr := char_editing.put_eq h (by omega) hij (by omega) x
  obtain ⟨p1, p2⟩ := char_editing.put_put h (by omega) h2.1 hij (by omega) (by omega) hr (edit_len h.1 hij (by omega) hl) (fun r e => characters_edit h h2 i j hij hc r e)
  exact ⟨_, hr, p1, p2, old, ho1, (p2 old).trans ho2⟩

/-- C116: inserting is replacing nothing, at every index up to the number of code points (characters), for any text. -/
theorem C116_insert (s x : Str) (hs : Valid s) (hl : s.length < 2 ^ 63) (i m : Nat) (hi : i ≤ m) :
    (countCodepoints s = .ok m → insertCodepoints s i x = replaceCodepoints s i i x) ∧
    (countChars s = .ok m → insertChars s i x = replaceChars s i i x) := by
  constructor
  · intro hm
    obtain ⟨gs, h, hg, hle⟩ := cp_count hs
    rw [hm] at hg; injection hg with hg
    have hmin : (i : Int) ≠ PTRDIFF_MIN := by unfold PTRDIFF_MIN; omega
    rw [codepoint_editing.put_eq h hl (Nat.le_refl i) (by omega)]
    obtain ⟨-, h1, h2⟩ := C32_insert_codepoints_partial s gs h (by unfold npos; omega) i hmin
    by_cases hx : x = []
    · rw [hx, h2, List.append_nil, ← List.flatten_append, List.take_append_drop, h.1]
    · rw [h1 x hx, boundary_at (by omega)]
      simp only
      rw [← take_off, ← drop_off, h.1]
  · intro hm
    obtain ⟨gs, h, hg, hle⟩ := char_count hs (by unfold SIZE_MOD; omega)
    rw [hm] at hg; injection hg with hg
    rw [char_editing.put_eq h hl (Nat.le_refl i) (by omega)]
    obtain ⟨-, h1, h2⟩ := C32_insert_chars_partial s gs h (by unfold npos; omega) i
    by_cases hx : x = []
    · rw [hx, h2, List.append_nil, ← List.flatten_append, List.take_append_drop, h.1]
    · rw [h1 x hx, boundary_at (by omega)]
      simp only
      rw [← take_off, ← drop_off, h.1]

/-- C116: edits at different places can be made in any order. The second place is moved by what is written at the first one. -/
theorem C116_commute_codepoints (s x y : Str) (hs : Valid s) (hx : Valid x) (hy : Valid y) (hl : s.length + x.length + y.length < 2 ^ 63) (i j k l m n : Nat)
    (hij : i ≤ j) (hjk : j ≤ k) (hkl : k ≤ l) (hm : countCodepoints s = .ok m) (hlm : l ≤ m) (hn : countCodepoints x = .ok n) :
    ∃ r q t, replaceCodepoints s i j x = .ok r ∧ replaceCodepoints s k l y = .ok q ∧
      replaceCodepoints q i j x = .ok t ∧ replaceCodepoints r (k - j + (i + n) : Nat) (l - j + (i + n) : Nat) y = .ok t := by
  obtain ⟨gs, h, hg, hle⟩ := cp_count hs
  obtain ⟨xs, h2, hg2, hle2⟩ := cp_count hx
  obtain ⟨ys, h3, hg3, hle3⟩ := cp_count hy
  rw [hm] at hg; injection hg with hg
  rw [hn] at hg2; injection hg2 with hg2
  subst hg2
  have hr := codepoint_editing.put_eq h (by omega) hij (by omega) x
  have hq := codepoint_editing.put_eq h (by omega) hkl (by omega) y
  have l1 := edit_len (x := x) h.1 hij (by omega) (by omega)
  have l2 := edit_len (x := y) h.1 hkl (by omega) (by omega)
  have hcm := codepoint_editing.commute h (by omega) h2.1 h3.1 hij hjk hkl (by omega) hr l1 hq l2 (fun r e => codePoints_edit h h2 i j r e) (fun r e => codePoints_edit h h3 k l r e)
  have hQ := (fun r e => codePoints_edit h h3 k l r e) _ (by rw [List.flatten_append, List.flatten_append, h3.1] : _ = (gs.take k ++ ys ++ gs.drop l).flatten)
  have ht := codepoint_editing.put_eq hQ l2 hij (by simp only [List.length_append, List.length_take]; omega) x
  exact ⟨_, _, _, hr, hq, ht, hcm ▸ ht⟩

/-- C116: edits at different places can be made in any order. The second place is moved by what is written at the first one. -/
theorem C116_commute_chars (s x y : Str) (hs : Valid s) (hx : Valid x) (hy : Valid y) (hl : s.length + x.length + y.length < 2 ^ 63) (i j k l m n : Nat)
    (hij : i ≤ j) (hjk : j ≤ k) (hkl : k ≤ l) (hm : countChars s = .ok m) (hlm : l ≤ m) (hn : countChars x = .ok n) (hc : CharEdit s i j x) (hd : CharEdit s k l y) :
    ∃ r q t, replaceChars s i j x = .ok r ∧ replaceChars s k l y = .ok q ∧
      replaceChars q i j x = .ok t ∧ replaceChars r (k - j + (i + n) : Nat) (l - j + (i + n) : Nat) y = .ok t := by
  obtain ⟨gs, h, hg, hle⟩ := char_count hs (by unfold SIZE_MOD; omega)
  obtain ⟨xs, h2, hg2, hle2⟩ := char_count hx (by unfold SIZE_MOD; omega)
  obtain ⟨ys, h3, hg3, hle3⟩ := char_count hy (by unfold SIZE_MOD; omega)
  rw [hm] at hg; injection hg with hg
  rw [hn] at hg2; injection hg2 with hg2
  subst hg2
  have hr := char_editing.put_eq h (by omega) hij (by omega) x
  have hq := char_editing.put_eq h (by omega) hkl (by omega) y
  have l1 := edit_len (x := x) h.1 hij (by omega) (by omega)
  have l2 := edit_len (x := y) h.1 hkl (by omega) (by omega)
  have hcm := char_editing.commute h (by omega) h2.1 h3.1 hij hjk hkl (by omega) hr l1 hq l2 (fun r e => characters_edit h h2 i j hij hc r e) (fun r e => characters_edit h h3 k l hkl hd r e)
  have hQ := (fun r e => characters_edit h h3 k l hkl hd r e) _ (by rw [List.flatten_append, List.flatten_append, h3.1] : _ = (gs.take k ++ ys ++ gs.drop l).flatten)
  have ht := char_editing.put_eq hQ l2 hij (by simp only [List.length_append, List.length_take]; omega) x
  exact ⟨_, _, _, hr, hq, ht, hcm ▸ ht⟩

/-- C116: for characters the condition is needed: a mark that is inserted behind "e" belongs to the "e", so it is not the second character of the result. -/
theorem C116_marks : insertChars [0x65] 1 [0xCC, 0x81] = .ok [0x65, 0xCC, 0x81] ∧ countChars [0xCC, 0x81] = .ok 1 ∧
    getCharSubstring [0x65, 0xCC, 0x81] 1 2 = .ok [] ∧ replaceChars [0x65, 0xCC, 0x81] 1 2 [] = .ok [0x65, 0xCC, 0x81] ∧
    insertCodepoints [0x65] 1 [0xCC, 0x81] = .ok [0x65, 0xCC, 0x81] ∧ getCodepointSubstring [0x65, 0xCC, 0x81] 1 2 = .ok [0xCC, 0x81] ∧
    replaceCodepoints [0x65, 0xCC, 0x81] 1 2 [] = .ok [0x65] := by decide +kernel

-- the hypotheses are met: "aéb" (e with an acute mark), its second character replaced by "xy" and restored
example : countChars [0x61, 0x65, 0xCC, 0x81, 0x62] = .ok 3 ∧ CharEdit [0x61, 0x65, 0xCC, 0x81, 0x62] 1 2 [0x78, 0x79] ∧
    replaceChars [0x61, 0x65, 0xCC, 0x81, 0x62] 1 2 [0x78, 0x79] = .ok [0x61, 0x78, 0x79, 0x62] ∧ countChars [0x78, 0x79] = .ok 2 ∧
    getCharSubstring [0x61, 0x78, 0x79, 0x62] 1 3 = .ok [0x78, 0x79] ∧
    replaceChars [0x61, 0x78, 0x79, 0x62] 1 3 [0x65, 0xCC, 0x81] = .ok [0x61, 0x65, 0xCC, 0x81, 0x62] := by
  refine ⟨by decide +kernel, ⟨.inr ?_, .inl (by decide)⟩, by decide +kernel, by decide +kernel, by decide +kernel, by decide +kernel⟩
  rintro ⟨m, cs, hd, hm⟩
  have : Decodes [0x78, 0x79] [0x78, 0x79] := .cons (u := [0x78]) (.one (by decide) (by decide)) (.cons (u := [0x79]) (.one (by decide) (by decide)) .nil)
  have e := hd.unique this
  injection e with e1 e2
  rw [e1] at hm
  revert hm
  decide +kernel

end Ystring
