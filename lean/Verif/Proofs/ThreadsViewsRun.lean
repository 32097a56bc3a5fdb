import Verif.Proofs.ThreadsTextRun
import Verif.Proofs.ThreadsCalls
import Verif.Model.ThreadsViews
import Verif.Spec.Threads
/- What the functions of Verif/Model/ThreadsViews.lean return when they are alone. -/
namespace Ystring.Thr
open Ptr Spec

theorem run_findFirstWhere (m : Mem) (b e : Nat) (hb : b ≤ e) (pred : Char32 → Bool) (o : Nat) :
    alone (findFirstWhere ⟨b, e⟩ pred o) m = (Ystring.findFirstWhere (bytes m b e) pred o, m) := by
  unfold findFirstWhere Ystring.findFirstWhere iterAt
  by_cases ho : o > e - b
  · rw [alone_err (alone_ptr_bad m (by first | omega | (dsimp only; omega))), if_pos (by rw [bytes_length]; exact ho)]; rfl
  · rw [alone_ok (alone_ptr m (by first | omega | (dsimp only; omega)) (by first | omega | (dsimp only; omega))), if_neg (by rw [bytes_length]; exact ho), ok_bind, bytes_drop]
    dsimp only
    rw [run_findFirstWhereLoop m b e pred _ _ _ (by omega) (by omega) (by omega) (by omega), bytes_length]

theorem run_findLastWhere (m : Mem) (b e : Nat) (hb : b ≤ e) (pred : Char32 → Bool) (o : Nat) :
    alone (findLastWhere ⟨b, e⟩ pred o) m = (Ystring.findLastWhere (bytes m b e) pred o, m) := by
  unfold findLastWhere Ystring.findLastWhere
  dsimp only
  rw [alone_ok (alone_ptr m (by first | omega | (dsimp only; omega)) (by first | omega | (dsimp only; omega))), bytes_length,
    run_findLastWhereLoop m b e pred _ _ _ (by omega) (by omega) (by omega) (by omega), bytes_take m (by omega)]

theorem map_substr (m : Mem) (b e pos n : Nat) :
    ((viewOf m ⟨b, e⟩).substr pos n).map placeOf = subview ⟨b, e⟩ pos n := by
  unfold View.substr viewOf Ystring.substr subview text
  dsimp only
  rw [bytes_length]
  split
  · rfl
  · simp only [ok_bind, Except.map, placeOf, Option.map, Option.getD, List.length_take, List.length_drop, bytes_length]

/-- what `substr` makes is a view of the same memory -/
theorem substr_view (m : Mem) (b e : Nat) (hb : b ≤ e) (pos n : Nat) :
    (∃ er, (viewOf m ⟨b, e⟩).substr pos n = .error er ∧ Ystring.substr (bytes m b e) pos n = .error er ∧ subview ⟨b, e⟩ pos n = .error er) ∨
    (∃ b' e', b ≤ b' ∧ b' ≤ e' ∧ e' ≤ e ∧ (viewOf m ⟨b, e⟩).substr pos n = .ok (viewOf m ⟨b', e'⟩) ∧
      Ystring.substr (bytes m b e) pos n = .ok (bytes m b' e') ∧ subview ⟨b, e⟩ pos n = .ok ⟨b', e'⟩) := by
  unfold View.substr viewOf Ystring.substr subview text
  dsimp only
  rw [bytes_length]
  split
  · exact .inl ⟨_, rfl, rfl, rfl⟩
  · have ht : ((bytes m b e).drop pos).take n = bytes m (b + pos) (b + pos + min n (e - b - pos)) := by
      rw [bytes_part]
    refine .inr ⟨b + pos, b + pos + min n (e - b - pos), by omega, by omega, by omega, ?_, ?_, rfl⟩
    · rw [ht]; rfl
    · rw [ht]

theorem placeOf_viewOf (m : Mem) (b e : Nat) (hb : b ≤ e) : placeOf (viewOf m ⟨b, e⟩) = ⟨b, e⟩ := by
  unfold placeOf viewOf text
  simp only [Option.getD, bytes_length]
  rw [show b + (e - b) = e by omega]

/-! ### trim -/

theorem run_trimEndWhere (m : Mem) (b e : Nat) (hb : b ≤ e) (pred : Char32 → Bool) :
    alone (trimEndWhere ⟨b, e⟩ pred) m = ((Ystring.trimEndWhereV (viewOf m ⟨b, e⟩) pred).map placeOf, m) := by
  unfold trimEndWhere Ystring.trimEndWhereV
  rw [alone_bind, run_findLastWhere m b e hb]
  show _ = (Except.map placeOf (Ystring.findLastWhere (bytes m b e) _ _ >>= _), m)
  cases Ystring.findLastWhere (bytes m b e) (fun c => !pred c) npos with
  | error er => rfl
  | ok x =>
    simp only [ok_bind]
    split
    · rfl
    · rw [alone_fin, map_substr m b e]

/-- also what the view is -/
theorem run_trimStartWhere' (m : Mem) (b e : Nat) (hb : b ≤ e) (pred : Char32 → Bool) :
    (∃ er, Ystring.trimStartWhereV (viewOf m ⟨b, e⟩) pred = .error er ∧ alone (trimStartWhere ⟨b, e⟩ pred) m = (.error er, m)) ∨
    (Ystring.trimStartWhereV (viewOf m ⟨b, e⟩) pred = .ok View.null ∧ alone (trimStartWhere ⟨b, e⟩ pred) m = (.ok nullView, m)) ∨
    (∃ b' e', b' ≤ e' ∧ Ystring.trimStartWhereV (viewOf m ⟨b, e⟩) pred = .ok (viewOf m ⟨b', e'⟩) ∧
      alone (trimStartWhere ⟨b, e⟩ pred) m = (.ok ⟨b', e'⟩, m)) := by
  unfold trimStartWhere Ystring.trimStartWhereV
  rw [alone_bind, run_findFirstWhere m b e hb]
  have ht : (viewOf m ⟨b, e⟩).text = bytes m b e := rfl
  rw [ht]
  cases Ystring.findFirstWhere (bytes m b e) (fun c => !pred c) 0 with
  | error er => exact .inl ⟨_, rfl, rfl⟩
  | ok x =>
    simp only [ok_bind]
    split
    · exact .inr (.inl ⟨rfl, rfl⟩)
    · rw [alone_fin]
      rcases substr_view m b e hb x.1.start npos with ⟨er, k1, -, k2⟩ | ⟨b', e', -, k0, -, k1, -, k2⟩
      · exact .inl ⟨er, k1, by rw [k2]⟩
      · exact .inr (.inr ⟨b', e', k0, k1, by rw [k2]⟩)

theorem run_trimStartWhere (m : Mem) (b e : Nat) (hb : b ≤ e) (pred : Char32 → Bool) :
    alone (trimStartWhere ⟨b, e⟩ pred) m = ((Ystring.trimStartWhereV (viewOf m ⟨b, e⟩) pred).map placeOf, m) := by
  rcases run_trimStartWhere' m b e hb pred with ⟨er, k1, k2⟩ | ⟨k1, k2⟩ | ⟨b', e', k0, k1, k2⟩
  · rw [k1, k2]; rfl
  · rw [k1, k2]; rfl
  · rw [k1, k2]; show _ = (Except.ok (placeOf _), m); rw [placeOf_viewOf m b' e' k0]

theorem run_trimWhere (m : Mem) (b e : Nat) (hb : b ≤ e) (pred : Char32 → Bool) :
    alone (trimWhere ⟨b, e⟩ pred) m = ((Ystring.trimWhereV (viewOf m ⟨b, e⟩) pred).map placeOf, m) := by
  unfold trimWhere Ystring.trimWhereV
  rcases run_trimStartWhere' m b e hb pred with ⟨er, k1, k2⟩ | ⟨k1, k2⟩ | ⟨b', e', k0, k1, k2⟩
  · rw [k1, alone_err k2]; rfl
  · rw [k1, alone_ok k2]; rfl
  · rw [k1, alone_ok k2, run_trimEndWhere m b' e' k0]; rfl

/-! ### Newlines -/

theorem run_findFirstNewline (m : Mem) (b e : Nat) (hb : b ≤ e) (mem : List Char32) (o : Nat) :
    alone (findFirstNewline mem ⟨b, e⟩ o) m = (Ystring.findFirstNewline mem (bytes m b e) o, m) := by
  unfold findFirstNewline Ystring.findFirstNewline findFirstOf
  rw [alone_bind, run_findFirstWhere m b e hb]
  cases Ystring.findFirstWhere (bytes m b e) (u32Contains (pointerView NEWLINES mem)) o with
  | error er => rfl
  | ok x =>
    obtain ⟨s, c⟩ := x
    simp only [ok_bind]
    by_cases hc : c = 0x0D
    · rw [if_neg (by simp [hc]), if_neg (by simp [hc])]
      unfold iterAt
      by_cases ho : s.stop > e - b
      · rw [alone_err (alone_ptr_bad m (by first | omega | (dsimp only; omega))), if_pos (by rw [bytes_length]; exact ho)]; rfl
      · rw [alone_ok (alone_ptr m (by first | omega | (dsimp only; omega)) (by first | omega | (dsimp only; omega))), if_neg (by rw [bytes_length]; exact ho), ok_bind, bytes_drop]
        obtain ⟨h1, h2⟩ | ⟨h1, h2⟩ | ⟨c, i, h3, h4, h1, h2⟩ := run_safeDecodeNext m b e (b + s.stop) (by omega) (by omega)
        · rw [alone_ok h2, h1]; rfl
        · rw [alone_err h2, h1]; rfl
        · rw [alone_ok h2, h1]
          simp only [ok_bind]
          split
          · simp only [alone_fin, posOf, bytes_length]
            rw [show e - b - (e - i) = i - b by omega]
          · rfl
    · rw [if_pos hc, if_pos hc]; rfl

theorem run_findLastNewline (m : Mem) (b e : Nat) (hb : b ≤ e) (mem : List Char32) (o : Nat) :
    alone (findLastNewline mem ⟨b, e⟩ o) m = (Ystring.findLastNewline mem (bytes m b e) o, m) := by
  unfold findLastNewline Ystring.findLastNewline findLastOf
  rw [alone_bind, run_findLastWhere m b e hb]
  cases Ystring.findLastWhere (bytes m b e) (u32Contains (pointerView NEWLINES mem)) o with
  | error er => rfl
  | ok x =>
    obtain ⟨s, c⟩ := x
    simp only [ok_bind]
    by_cases hc : c = 0x0A
    · rw [if_neg (by simp [hc]), if_neg (by simp [hc])]
      unfold revIterAt
      by_cases ho : s.start > e - b
      · rw [alone_err (alone_ptr_bad m (by first | omega | (dsimp only; omega))), if_pos (by rw [bytes_length]; exact ho)]; rfl
      · rw [alone_ok (alone_ptr m (by first | omega | (dsimp only; omega)) (by first | omega | (dsimp only; omega))), if_neg (by rw [bytes_length]; exact ho), ok_bind,
          bytes_take m (by omega)]
        obtain ⟨h1, h2⟩ | ⟨er, h1, h2⟩ | ⟨c, i, h3, h4, h1, h2⟩ := run_safeDecodePrev m b e (b + s.start) (by omega) (by omega)
        · rw [alone_ok h2, h1]; rfl
        · rw [alone_err h2, h1]; rfl
        · rw [alone_ok h2, h1]
          simp only [ok_bind]
          split
          · simp only [alone_fin, List.length_reverse, bytes_length]
          · rfl
    · rw [if_pos hc, if_pos hc]; rfl

/-! ### Substrings -/

theorem run_getCappedCharPos (m : Mem) (b e : Nat) (hb : b ≤ e) (pos : Int) :
    alone (getCappedCharPos ⟨b, e⟩ pos) m = (Ystring.getCappedCharPos (bytes m b e) pos, m) := by
  unfold getCappedCharPos Ystring.getCappedCharPos
  rw [alone_bind, run_getCharPos m b e hb]
  cases Ystring.getCharPos (bytes m b e) pos with
  | error er => rfl
  | ok x =>
    simp only [ok_bind, bytes_length]
    split <;> rfl

theorem run_getCappedCodepointPos (m : Mem) (b e : Nat) (hb : b ≤ e) (pos : Int) :
    alone (getCappedCodepointPos ⟨b, e⟩ pos) m = (Ystring.getCappedCodepointPos (bytes m b e) pos, m) := by
  unfold getCappedCodepointPos Ystring.getCappedCodepointPos
  rw [alone_bind, run_getCodepointPos m b e hb]
  cases Ystring.getCodepointPos (bytes m b e) pos with
  | error er => rfl
  | ok x =>
    simp only [ok_bind, bytes_length]
    split <;> rfl

/-- two positions, the second in a part of the string -/
theorem run_two {α : Type} (m : Mem) (b e : Nat) (hb : b ≤ e) {pos : Range → Int → Prog Nat} {pos' : Str → Int → Res Nat}
    (h : ∀ b e i, b ≤ e → alone (pos ⟨b, e⟩ i) m = (pos' (bytes m b e) i, m)) (i j : Int) (p n : Nat → Nat) (f : Nat → Nat → α) :
    alone (do
      let s ← pos ⟨b, e⟩ i
      let r' ← fin (subview ⟨b, e⟩ (p s) (n s))
      let t ← pos r' j
      fin (.ok (f s t))) m
    = ((do
      let s ← pos' (bytes m b e) i
      let r' ← Ystring.substr (bytes m b e) (p s) (n s)
      let t ← pos' r' j
      .ok (f s t)), m) := by
  rw [alone_bind, h b e i hb]
  cases pos' (bytes m b e) i with
  | error er => rfl
  | ok s =>
    simp only [ok_bind]
    rw [alone_bind, alone_fin]
    rcases substr_view m b e hb (p s) (n s) with ⟨er, -, k1, k2⟩ | ⟨b', e', -, k0, -, -, k1, k2⟩
    · rw [k1, k2]; rfl
    · rw [k1, k2]
      simp only [ok_bind]
      rw [alone_bind, h b' e' j k0]
      cases pos' (bytes m b' e') j with
      | error er => rfl
      | ok t => rfl

/-- two positions in a string -/
theorem run_both {α : Type} (m : Mem) (b e : Nat) (hb : b ≤ e) {pos : Range → Int → Prog Nat} {pos' : Str → Int → Res Nat}
    (h : ∀ b e i, b ≤ e → alone (pos ⟨b, e⟩ i) m = (pos' (bytes m b e) i, m)) (i j : Int) (f : Nat → Nat → α) :
    alone (do
      let s ← pos ⟨b, e⟩ i
      let t ← pos ⟨b, e⟩ j
      fin (.ok (f s t))) m
    = ((do
      let s ← pos' (bytes m b e) i
      let t ← pos' (bytes m b e) j
      .ok (f s t)), m) := by
  rw [alone_bind, h b e i hb]
  cases pos' (bytes m b e) i with
  | error er => rfl
  | ok s =>
    simp only [ok_bind]
    rw [alone_bind, h b e j hb]
    cases pos' (bytes m b e) j with
    | error er => rfl
    | ok t => rfl

theorem run_getCharSubstring (m : Mem) (b e : Nat) (hb : b ≤ e) (i j : Int) :
    alone (getCharSubstring ⟨b, e⟩ i j) m = ((Ystring.getCharSubstringV (viewOf m ⟨b, e⟩) i j).map placeOf, m) := by
  have hp := fun b e i hb => run_getCappedCharPos m b e hb i
  have hr : alone (getCharSubstringRange ⟨b, e⟩ i j) m = (Ystring.getCharSubstringRange (bytes m b e) i j, m) := by
    unfold getCharSubstringRange Ystring.getCharSubstringRange
    dsimp only
    split
    · exact run_two m b e hb hp _ _ (fun s => s) (fun _ => npos) fun s t => (⟨s, t⟩ : Subrange)
    split
    · exact run_two m b e hb hp _ _ (fun _ => 0) (fun s => s) fun s t => (⟨t, sizeSub s t⟩ : Subrange)
    split
    · exact run_two m b e hb hp _ _ (fun s => s) (fun _ => npos) fun s t => (⟨s, sizeSub t s⟩ : Subrange)
    · exact run_both m b e hb hp _ _ fun s t => (⟨s, if t > s then t - s else 0⟩ : Subrange)
  unfold getCharSubstring Ystring.getCharSubstringV
  rw [alone_bind, hr]
  show _ = (Except.map placeOf (Ystring.getCharSubstringRange (bytes m b e) i j >>= _), m)
  cases Ystring.getCharSubstringRange (bytes m b e) i j with
  | error er => rfl
  | ok x =>
    simp only [ok_bind]
    rw [alone_fin, map_substr m b e]

theorem run_getCodepointSubstring (m : Mem) (b e : Nat) (hb : b ≤ e) (i j : Int) :
    alone (getCodepointSubstring ⟨b, e⟩ i j) m = ((Ystring.getCodepointSubstringV (viewOf m ⟨b, e⟩) i j).map placeOf, m) := by
  have hp := fun b e i hb => run_getCappedCodepointPos m b e hb i
  have hr : alone (getCodepointSubstringRange ⟨b, e⟩ i j) m = (Ystring.getCodepointSubstringRange (bytes m b e) i j, m) := by
    unfold getCodepointSubstringRange Ystring.getCodepointSubstringRange
    dsimp only
    split
    · exact run_two m b e hb hp _ _ (fun s => s) (fun _ => npos) fun s t => (⟨s, t⟩ : Subrange)
    split
    · exact run_two m b e hb hp _ _ (fun _ => 0) (fun s => s) fun s t => (⟨t, sizeSub s t⟩ : Subrange)
    split
    · exact run_two m b e hb hp _ _ (fun s => s) (fun _ => npos) fun s t => (⟨s, t⟩ : Subrange)
    · exact run_both m b e hb hp _ _ fun s t => (⟨s, max s t⟩ : Subrange)
  unfold getCodepointSubstring Ystring.getCodepointSubstringV
  rw [alone_bind, hr]
  show _ = (Except.map placeOf (Ystring.getCodepointSubstringRange (bytes m b e) i j >>= _), m)
  cases Ystring.getCodepointSubstringRange (bytes m b e) i j with
  | error er => rfl
  | ok x =>
    simp only [ok_bind]
    rw [alone_fin, map_substr m b e]

end Ystring.Thr
