import Verif.Props.Chars
/- Shared part of the substring range functions. -/
namespace Ystring
open Spec

/-- offset of piece `k` -/
def off (gs : List Str) (k : Nat) : Nat := (gs.take k).flatten.length

theorem off_le (gs : List Str) (k : Nat) : off gs k ≤ gs.flatten.length := flatten_take_le gs k

theorem flatten_split (gs : List Str) (k : Nat) : gs.flatten = (gs.take k).flatten ++ (gs.drop k).flatten := by
  rw [← List.flatten_append, List.take_append_drop]

theorem take_off (gs : List Str) (k : Nat) : gs.flatten.take (off gs k) = (gs.take k).flatten := by
  rw [flatten_split gs k, off, List.take_left]

theorem drop_off (gs : List Str) (k : Nat) : gs.flatten.drop (off gs k) = (gs.drop k).flatten := by
  rw [flatten_split gs k, off, List.drop_left]

theorem off_of_ge (gs : List Str) (k : Nat) (h : gs.length ≤ k) : off gs k = gs.flatten.length := by
  rw [off, List.take_of_length_le h]

@[simp] theorem off_zero (gs : List Str) : off gs 0 = 0 := by simp [off]

theorem off_mono {gs : List Str} {i j : Nat} (h : i ≤ j) : off gs i ≤ off gs j := by
  unfold off
  have : gs.take i = (gs.take j).take i := by rw [List.take_take]; congr 1; omega
  rw [this]; exact flatten_take_le _ _

theorem off_add (gs : List Str) (i m : Nat) : off gs (i + m) = off gs i + ((gs.drop i).take m).flatten.length := by
  unfold off; rw [List.take_add, List.flatten_append, List.length_append]

theorem off_lt {gs : List Str} (hp : ∀ g ∈ gs, 0 < g.length) {i j : Nat} (h : i < j) (hj : j ≤ gs.length) :
    off gs i < off gs j := by
  have h1 : off gs (i + 1) ≤ off gs j := off_mono h
  have h2 := flatten_take_succ gs i (by omega)
  have h3 := hp gs[i] (List.getElem_mem _)
  unfold off at *; omega

theorem substr_off {gs : List Str} {s : Str} (e : gs.flatten = s) (hs : s.length < npos) (k : Nat) :
    substr s (off gs k) = .ok (gs.drop k).flatten := by
  subst e
  have := off_le gs k
  unfold substr
  rw [if_neg (by omega), drop_off, List.take_of_length_le]
  have := flatten_split gs k
  have := congrArg List.length this
  simp only [List.length_append] at this
  omega

theorem substr_take {gs : List Str} {s : Str} (e : gs.flatten = s) (k : Nat) :
    substr s 0 (off gs k) = .ok (gs.take k).flatten := by
  subst e
  unfold substr
  rw [if_neg (by omega), List.drop_zero, take_off]

theorem substr_slice {gs : List Str} {s : Str} (e : gs.flatten = s) (k m : Nat) :
    substr s (off gs k) ((gs.drop k).take m).flatten.length = .ok ((gs.drop k).take m).flatten := by
  subst e
  have := off_le gs k
  unfold substr
  rw [if_neg (by omega), drop_off]
  exact congrArg Except.ok (take_off (gs.drop k) m)

/-- what the capped position functions return -/
structure CapSpec (S : Str → List Str → Prop) (cap : Str → Int → Res Nat) (okIdx : Int → Prop) : Prop where
  flat : ∀ {s gs}, S s gs → gs.flatten = s
  pos : ∀ {s gs}, S s gs → ∀ g ∈ gs, 0 < g.length
  split : ∀ {gs hs}, S (gs ++ hs).flatten (gs ++ hs) → S gs.flatten gs ∧ S hs.flatten hs
  cap : ∀ {s gs} (k : Int), S s gs → s.length < npos → okIdx k → cap s k = .ok (off gs (clampIndex gs.length k))

theorem cap_of_boundary {gs : List Str} {s : Str} (e : gs.flatten = s) (hs : s.length < npos) (k : Int) :
    (do let p ← (.ok ((boundary gs k).getD npos) : Res Nat)
        if p ≠ npos then .ok p else .ok (if k > 0 then s.length else 0)) =
      (.ok (off gs (clampIndex gs.length k)) : Res Nat) := by
  simp only [bind, Except.bind]
  have small : ∀ k, off gs k ≠ npos := by intro k; have := off_le gs k; rw [e] at this; omega
  by_cases h0 : 0 ≤ k
  · by_cases h1 : k ≤ gs.length
    · rw [boundary_nonneg h0 h1]
      simp only [Option.getD_some]
      have hc : clampIndex gs.length k = k.toNat := by unfold clampIndex; rw [if_pos h0]; omega
      rw [hc]
      exact if_pos (small _)
    · rw [boundary_none (by omega)]
      have hc : clampIndex gs.length k = gs.length := by unfold clampIndex; rw [if_pos h0]; omega
      rw [hc, off_of_ge gs _ (Nat.le_refl _), e]
      simp only [Option.getD_none]
      rw [if_neg (by simp), if_pos (by omega)]
  · have hc : clampIndex gs.length k = (gs.length + k).toNat := by unfold clampIndex; rw [if_neg h0]
    rw [hc]
    by_cases h1 : -k ≤ gs.length
    · rw [boundary_neg (by omega) h1]
      exact if_pos (small _)
    · rw [boundary_none (by omega)]
      simp only [Option.getD_none]
      rw [if_neg (by simp), if_neg (by omega), show ((gs.length : Int) + k).toNat = 0 by omega, off_zero]

theorem charCap : CapSpec Characters getCappedCharPos (fun _ => True) where
  flat h := h.1
  pos h := fun _ hg => chars_length_pos h hg
  split h := h.split
  cap {s gs} k h hl _ := by
    have hm : s.length < SIZE_MOD := by unfold npos at hl; unfold SIZE_MOD; omega
    unfold getCappedCharPos
    rw [C25_get_char_pos s gs h hm]
    exact cap_of_boundary h.1 hl k

theorem codepointCap : CapSpec CodePoints getCappedCodepointPos (fun k => k ≠ PTRDIFF_MIN) where
  flat h := h.1
  pos h := h.steps.pos
  split h := ⟨⟨rfl, fun g hg => h.2 g (by simp [hg])⟩, ⟨rfl, fun g hg => h.2 g (by simp [hg])⟩⟩
  cap {s gs} k h hl hk := by
    unfold getCappedCodepointPos
    rw [C27_get_codepoint_pos_partial s gs h k hk]
    exact cap_of_boundary h.1 hl k

namespace CapSpec
variable {S : Str → List Str → Prop} {cap : Str → Int → Res Nat} {okIdx : Int → Prop} (C : CapSpec S cap okIdx)
include C

theorem drop_len {s gs} (h : S s gs) (k : Nat) : (gs.drop k).flatten.length ≤ s.length := by
  rw [← C.flat h, flatten_split gs k]; simp
theorem take_len {s gs} (h : S s gs) (k : Nat) : (gs.take k).flatten.length ≤ s.length := by
  rw [← C.flat h]; exact flatten_take_le gs k

theorem S_split {s gs} (h : S s gs) (k : Nat) : S (gs.take k).flatten (gs.take k) ∧ S (gs.drop k).flatten (gs.drop k) := by
  apply C.split
  rw [List.take_append_drop, C.flat h]; exact h

/-- position in the rest of the string -/
theorem suffix {s gs} (h : S s gs) (hl : s.length < npos) (I : Nat) {k : Int} (hk : okIdx k) :
    cap (gs.drop I).flatten k = .ok (((gs.drop I).take (clampIndex (gs.length - I) k)).flatten.length) := by
  rw [C.cap k (C.S_split h I).2 (by have := C.drop_len h I; omega) hk, List.length_drop, off]

/-- position in the first part of the string -/
theorem prefix' {s gs} (h : S s gs) (hl : s.length < npos) (J : Nat) (hJ : J ≤ gs.length) {k : Int} (hk : okIdx k) :
    cap (gs.take J).flatten k = .ok (off gs (min (clampIndex J k) J)) := by
  rw [C.cap k (C.S_split h J).1 (by have := C.take_len h J; omega) hk, List.length_take,
    Nat.min_eq_left hJ, off, List.take_take, off]

end CapSpec

theorem clampIndex_le (n : Nat) (k : Int) : clampIndex n k ≤ n := by
  unfold clampIndex; split <;> omega

theorem slice_eq (gs : List Str) (i j : Int) :
    slice gs i j = (gs.drop (clampIndex gs.length i)).take (clampIndex gs.length j - clampIndex gs.length i) := by
  unfold slice; rw [List.drop_take]

/-- length in bytes of the slice -/
def sliceLen (gs : List Str) (i j : Int) : Nat := (slice gs i j).flatten.length

theorem sliceLen_off (gs : List Str) (i j : Int) :
    sliceLen gs i j = off gs (clampIndex gs.length j) - off gs (clampIndex gs.length i) := by
  unfold sliceLen
  rw [slice_eq]
  by_cases h : clampIndex gs.length i ≤ clampIndex gs.length j
  · have := off_add gs (clampIndex gs.length i) (clampIndex gs.length j - clampIndex gs.length i)
    rw [show clampIndex gs.length i + (clampIndex gs.length j - clampIndex gs.length i) = clampIndex gs.length j by omega] at this
    omega
  · have := off_mono (gs := gs) (i := clampIndex gs.length j) (j := clampIndex gs.length i) (by omega)
    rw [show clampIndex gs.length j - clampIndex gs.length i = 0 by omega]
    simp; omega

theorem substr_sliceLen {gs : List Str} {s : Str} (e : gs.flatten = s) (i j : Int) :
    substr s (off gs (clampIndex gs.length i)) (sliceLen gs i j) = .ok (slice gs i j).flatten := by
  unfold sliceLen
  rw [slice_eq]
  exact substr_slice e _ _

theorem sizeSub_eq {a b : Nat} (h : b ≤ a) (ha : a < SIZE_MOD) : sizeSub a b = a - b := by
  unfold sizeSub
  rw [show a + SIZE_MOD - b = (a - b) + SIZE_MOD by omega, Nat.add_mod_right, Nat.mod_eq_of_lt (by omega)]

namespace CapSpec
variable {S : Str → List Str → Prop} {cap : Str → Int → Res Nat} {okIdx : Int → Prop} (C : CapSpec S cap okIdx)
include C

/-- both indices non-negative -/
theorem range_pp {s gs} (h : S s gs) (hl : s.length < npos) {i j : Int} (hi : 0 ≤ i) (hj : 0 ≤ j)
    (ok : ∀ k, 0 ≤ k → okIdx k) :
    (do let s' ← cap s i
        let e ← cap (← substr s s') (adjustEnd i j - i)
        .ok (⟨s', e⟩ : Subrange)) = .ok ⟨off gs (clampIndex gs.length i), sliceLen gs i j⟩ := by
  have hadj : adjustEnd i j - i = if j < i then 0 else j - i := by
    unfold adjustEnd; simp [hi, hj]; split <;> omega
  rw [C.cap i h hl (ok i hi)]
  simp only [bind, Except.bind]
  rw [substr_off (C.flat h) hl]
  simp only
  rw [C.suffix h hl _ (ok _ (by rw [hadj]; split <;> omega))]
  simp only
  unfold sliceLen
  rw [slice_eq, hadj]
  congr 5
  unfold clampIndex
  rw [if_pos hi, if_pos hj]
  split <;> (rw [if_pos (by omega)]; omega)

/-- both indices negative -/
theorem range_nn {s gs} (h : S s gs) (hl : s.length < npos) {i j : Int} (hi : i < 0) (hj : j < 0)
    (oki : okIdx i) (okj : okIdx j) (okd : okIdx (i - adjustEnd i j)) :
    (do let e ← cap s (adjustEnd i j)
        let s' ← cap (← substr s 0 e) (i - adjustEnd i j)
        .ok (⟨s', sizeSub e s'⟩ : Subrange)) =
      if i < j then .ok ⟨off gs (clampIndex gs.length i), sliceLen gs i j⟩
      else .ok ⟨0, off gs (clampIndex gs.length i)⟩ := by
  have hm : ∀ k, off gs k < SIZE_MOD := by
    intro k
    have := off_le gs k
    rw [C.flat h] at this
    unfold npos at hl; unfold SIZE_MOD; omega
  have hn0 : ¬ (0 : Int) ≤ i := by omega
  have hn1 : ¬ (0 : Int) ≤ j := by omega
  have hadj : adjustEnd i j = if i < j then j else i := by
    unfold adjustEnd; simp [hn0, hn1]; split <;> split <;> omega
  rw [hadj] at okd ⊢
  by_cases hij : i < j
  · rw [if_pos hij] at okd ⊢
    rw [if_pos hij, C.cap j h hl okj]
    simp only [bind, Except.bind]
    rw [substr_take (C.flat h)]
    simp only
    rw [C.prefix' h hl _ (clampIndex_le _ _) okd]
    simp only
    have e1 : min (clampIndex (clampIndex gs.length j) (i - j)) (clampIndex gs.length j) = clampIndex gs.length i := by
      unfold clampIndex
      rw [if_neg hn0, if_neg hn1, if_neg (by omega)]
      omega
    rw [e1, sliceLen_off, sizeSub_eq (off_mono (by unfold clampIndex; rw [if_neg hn0, if_neg hn1]; omega)) (hm _)]
  · rw [if_neg hij] at okd ⊢
    rw [if_neg hij, C.cap i h hl oki]
    simp only [bind, Except.bind]
    rw [substr_take (C.flat h)]
    simp only
    rw [C.prefix' h hl _ (clampIndex_le _ _) okd]
    have e1 : clampIndex (clampIndex gs.length i) (i - i) = 0 := by unfold clampIndex; simp
    rw [e1, Nat.zero_min, off_zero]
    simp only
    rw [sizeSub_eq (by omega) (hm _), Nat.sub_zero]

/-- non-negative start, negative end: start and length -/
theorem range_pn {s gs} (h : S s gs) (hl : s.length < npos) {i j : Int} (hi : 0 ≤ i) (hj : j < 0)
    (oki : okIdx i) (okj : okIdx j) (f : Nat → Nat → Subrange) :
    (do let s' ← cap s i
        let e ← cap (← substr s s') (adjustEnd i j)
        .ok (f s' e)) = .ok (f (off gs (clampIndex gs.length i)) (sliceLen gs i j)) := by
  have hn1 : ¬ (0 : Int) ≤ j := by omega
  have hadj : adjustEnd i j = j := by
    unfold adjustEnd; simp [hi, hn1]
  rw [hadj, C.cap i h hl oki]
  simp only [bind, Except.bind]
  rw [substr_off (C.flat h) hl]
  simp only
  rw [C.suffix h hl _ okj]
  simp only
  unfold sliceLen
  rw [slice_eq]
  congr 5
  unfold clampIndex
  rw [if_pos hi, if_neg hn1, if_neg hn1]
  omega

/-- negative start, non-negative end: the offsets -/
theorem range_np {s gs} (h : S s gs) (hl : s.length < npos) {i j : Int} (hi : i < 0) (hj : 0 ≤ j)
    (oki : okIdx i) (okj : okIdx j) (f : Nat → Nat → Subrange) :
    (do let s' ← cap s i
        let e ← cap s (adjustEnd i j)
        .ok (f s' e)) = .ok (f (off gs (clampIndex gs.length i)) (off gs (clampIndex gs.length j))) := by
  have hn1 : ¬ (0 : Int) ≤ i := by omega
  have hadj : adjustEnd i j = j := by
    unfold adjustEnd; simp [hj, hn1]
  rw [hadj, C.cap i h hl oki, C.cap j h hl okj]
  rfl

end CapSpec

end Ystring
