import Verif.Spec.History
import Verif.Props.ReverseLaws
import Verif.Props.Consistency
import Verif.Props.Trim
import Verif.Props.Case
import Verif.Props.Escape
import Verif.Props.CaseInsensitiveReplace
import Verif.Props.Unescape
import Verif.Props.Composition
import Verif.Props.Decomposition
/-
Sets of strings that are closed under concatenation and under cutting between code points; they are closed under most
functions of the library.
-/
namespace Ystring
open Spec

/-- Closed under concatenation and under cutting between code points. -/
structure Kept (P : Str → Prop) : Prop where
  valid : ∀ {s}, P s → Valid s
  nil : P []
  append : ∀ {s t}, P s → P t → P (s ++ t)
  left : ∀ {s t}, P (s ++ t) → Valid s → P s
  right : ∀ {s t}, P (s ++ t) → Valid s → P t

theorem kept_valid : Kept Valid where
  valid h := h
  nil := ⟨[], .nil⟩
  append := fun ⟨_, h⟩ ⟨_, h'⟩ => ⟨_, h.append h'⟩
  left _ h := h
  right h h' := (valid_append_iff h' _).mp h

theorem wellFormed_valid {s : Str} (h : WellFormed s) : Valid s := by
  obtain ⟨cs, h1, -⟩ := C10_from_to_utf32 s h
  exact ⟨_, ((C09_to_utf32 _).1 _).mp h1⟩

theorem wellFormed_parts {s t : Str} (h : WellFormed (s ++ t)) (hs : Valid s) : WellFormed s ∧ WellFormed t := by
  obtain ⟨cs, h1, h2⟩ := h
  have hg : CodePoints (s ++ t) (cs.map rfcEncode) := by
    refine ⟨by rw [h2, List.flatMap_def], ?_⟩
    intro g hg
    obtain ⟨c, hc, rfl⟩ := List.mem_map.mp hg
    have hc' : c ≤ 0x10FFFF := by rcases h1 c hc with h | h <;> omega
    refine ⟨UInt32.ofNat c, ?_⟩
    have := rfcEncode_seq (UInt32.ofNat c) (by rw [UInt32.toNat_ofNat_of_lt' (by simp [UInt32.size]; omega)]; exact hc')
    rwa [UInt32.toNat_ofNat_of_lt' (by simp [UInt32.size]; omega)] at this
  obtain ⟨es, he⟩ := hs
  have hv : Valid t := (valid_append_iff ⟨es, he⟩ t).mp (((C27_codePoints _).1).mpr ⟨_, hg⟩)
  have hcut := cut_at hg rfl he hv
  have ht : s = ((cs.take es.length).map rfcEncode).flatten := by
    rw [List.map_take, ← take_off, hg.1, ← hcut, List.take_left]
  have hd : t = ((cs.drop es.length).map rfcEncode).flatten := by
    rw [List.map_drop, ← drop_off, hg.1, ← hcut, List.drop_left]
  exact ⟨⟨_, fun c hc => h1 c (List.mem_of_mem_take hc), by rw [ht, List.flatMap_def]⟩,
    ⟨_, fun c hc => h1 c (List.mem_of_mem_drop hc), by rw [hd, List.flatMap_def]⟩⟩

theorem kept_wellFormed : Kept WellFormed where
  valid := wellFormed_valid
  nil := ⟨[], by simp, rfl⟩
  append := wellFormed_append
  left h h' := (wellFormed_parts h h').1
  right h h' := (wellFormed_parts h h').2

namespace Kept
variable {P : Str → Prop} (K : Kept P)
include K

theorem flatten {gs : List Str} (h : ∀ g ∈ gs, P g) : P gs.flatten := by
  induction gs with
  | nil => exact K.nil
  | cons g gs ih => exact K.append (h g (by simp)) (ih fun x hx => h x (by simp [hx]))

theorem pieces {gs : List Str} (h : P gs.flatten) (hv : ∀ g ∈ gs, Valid g) : ∀ g ∈ gs, P g := by
  induction gs with
  | nil => simp
  | cons g gs ih =>
    intro x hx
    have hg := hv g (by simp)
    rcases List.mem_cons.mp hx with rfl | hx
    · exact K.left h hg
    · exact ih (K.right h hg) (fun y hy => hv y (by simp [hy])) x hx

/-- A sublist of the pieces. -/
theorem some_pieces {s : Str} {gs hs : List Str} (hP : P s) (e : gs.flatten = s) (hv : ∀ g ∈ gs, Valid g)
    (hsub : ∀ g ∈ hs, g ∈ gs) : P hs.flatten :=
  K.flatten fun g hg => K.pieces (e ▸ hP) hv g (hsub g hg)

theorem cp_pieces {s : Str} (hP : P s) : ∃ gs, CodePoints s gs ∧ ∀ g ∈ gs, Valid g := by
  obtain ⟨gs, hg⟩ := ((C27_codePoints s).1).mp (K.valid hP)
  exact ⟨gs, hg, fun g h => by obtain ⟨c, hc⟩ := hg.2 g h; exact ⟨_, hc.decodes⟩⟩

theorem char_pieces {s : Str} (hP : P s) : ∃ gs, Characters s gs ∧ ∀ g ∈ gs, Valid g := by
  obtain ⟨gs, hg⟩ := ((C24_segmentation s).1).mp (K.valid hP)
  exact ⟨gs, hg, fun g h => by obtain ⟨c, ms, hc, -⟩ := hg.2.1 g h; exact ⟨_, hc⟩⟩

theorem take_drop {s : Str} (hP : P s) {gs : List Str} (e : gs.flatten = s) (hv : ∀ g ∈ gs, Valid g) (k : Nat) :
    P (gs.take k).flatten ∧ P (gs.drop k).flatten :=
  ⟨K.some_pieces hP e hv fun _ h => List.mem_of_mem_take h, K.some_pieces hP e hv fun _ h => List.mem_of_mem_drop h⟩

theorem take_drop_off {s : Str} (hP : P s) {gs : List Str} (e : gs.flatten = s) (hv : ∀ g ∈ gs, Valid g) {k : Int} {o : Nat}
    (h : boundary gs k = some o) : P (s.take o) ∧ P (s.drop o) := by
  have : ∃ n, o = off gs n := by
    unfold boundary at h
    split at h
    · split at h
      · injection h with h; exact ⟨_, h.symm⟩
      · exact absurd h (by simp)
    · split at h
      · injection h with h; exact ⟨_, h.symm⟩
      · exact absurd h (by simp)
  obtain ⟨n, rfl⟩ := this
  rw [← e, take_off, drop_off]
  exact K.take_drop hP e hv n

theorem last {s : Str} (hP : P s) : s = [] ∨ ∃ t u c, s = t ++ u ∧ IsSeq u c ∧ Valid t := by
  obtain ⟨gs, hg, hv⟩ := K.cp_pieces hP
  rcases List.eq_nil_or_concat gs with rfl | ⟨hs, g, rfl⟩
  · exact .inl hg.1.symm
  · obtain ⟨c, hc⟩ := hg.2 g (by simp)
    refine .inr ⟨hs.flatten, g, c, by rw [← hg.1]; simp, hc, kept_valid.flatten fun x hx => hv x (by simp [hx])⟩

theorem joinWith {sep : Str} (hs : P sep) : ∀ {ps : List Str}, (∀ p ∈ ps, P p) → P (joinWith sep ps)
  | [], _ => K.nil
  | [p], h => h p (by simp)
  | p :: q :: ps, h => K.append (K.append (h p (by simp)) hs) (Kept.joinWith hs fun x hx => h x (by simp [hx]))

theorem reverse {s r : Str} (hP : P s) (hl : s.length < SIZE_MOD) (h : reverse s = .ok r) : P r := by
  obtain ⟨gs, hg, hv⟩ := K.char_pieces hP
  rw [(C33_reverse s gs hg hl).1] at h
  injection h with h
  subst h
  exact K.some_pieces hP hg.1 hv fun g hg => List.mem_reverse.mp hg

theorem substr_ok {s r : Str} {gs : List Str} (hP : P s) (e : gs.flatten = s) (hv : ∀ g ∈ gs, Valid g) (i j : Int) (sr : Subrange)
    (hsr : sr = ⟨off gs (clampIndex gs.length i), sliceLen gs i j⟩ ∨ sr = ⟨0, off gs (clampIndex gs.length i)⟩)
    (h : substr s sr.offset sr.length = .ok r) : P r := by
  rcases hsr with rfl | rfl
  · rw [substr_sliceLen e] at h
    injection h with h; subst h
    exact K.some_pieces hP e hv fun g hg => List.mem_of_mem_take (List.mem_of_mem_drop hg)
  · rw [substr_take e] at h
    injection h with h; subst h
    exact (K.take_drop hP e hv _).1

theorem subst_ok {s r t : Str} {gs : List Str} (hP : P s) (ht : P t) (e : gs.flatten = s) (hv : ∀ g ∈ gs, Valid g) (hl : s.length < npos)
    (i j : Int) (sr : Subrange)
    (hsr : sr = ⟨off gs (clampIndex gs.length i), sliceLen gs i j⟩ ∨ sr = ⟨0, off gs (clampIndex gs.length i)⟩)
    (h : replaceSubrange s sr t = .ok r) : P r := by
  have : ∃ a b, sr.offset = off gs a ∧ sr.stop = off gs b := by
    rcases hsr with rfl | rfl
    · exact ⟨_, _, rfl, stop_slice e hl i j⟩
    · refine ⟨0, clampIndex gs.length i, by simp, ?_⟩
      have := off_le gs (clampIndex gs.length i)
      rw [e] at this
      rw [subrange_stop _ _ (by have := size_of_npos hl; omega), Nat.zero_add]
  obtain ⟨a, b, h1, h2⟩ := this
  rw [replaceSubrange_off e hl a b t h1 h2] at h
  injection h with h; subst h
  exact K.append (K.append (K.take_drop hP e hv a).1 ht) (K.take_drop hP e hv b).2

end Kept

theorem codepointRange_cases {s : Str} {gs : List Str} (h : CodePoints s gs) (hl : s.length < npos) (i j : Int)
    (hij : 0 ≤ i ∨ j < 0) (sr : Subrange) (hr : getCodepointSubstringRange s i j = .ok sr)
    (hi : PTRDIFF_MIN < i) (hj : PTRDIFF_MIN < j) :
    sr = ⟨off gs (clampIndex gs.length i), sliceLen gs i j⟩ ∨ sr = ⟨0, off gs (clampIndex gs.length i)⟩ := by
  rw [codepointRange h hl i j hi hj] at hr
  split at hr
  · injection hr with hr; exact .inl hr.symm
  · rw [if_neg (by omega)] at hr
    split at hr
    · injection hr with hr; exact .inl hr.symm
    · injection hr with hr; exact .inr hr.symm

theorem charRange_cases {s : Str} {gs : List Str} (h : Characters s gs) (hl : s.length < npos) (i j : Int)
    (hij : i < 0 ∨ 0 ≤ j) (sr : Subrange) (hr : getCharSubstringRange s i j = .ok sr) :
    sr = ⟨off gs (clampIndex gs.length i), sliceLen gs i j⟩ ∨ sr = ⟨0, off gs (clampIndex gs.length i)⟩ := by
  rw [charRange h hl i j] at hr
  split at hr
  · rw [if_pos (by omega)] at hr
    injection hr with hr; exact .inl hr.symm
  · split at hr
    · injection hr with hr; exact .inl hr.symm
    · split at hr
      · injection hr with hr; exact .inl hr.symm
      · injection hr with hr; exact .inr hr.symm

end Ystring
