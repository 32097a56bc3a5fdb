import Verif.Proofs.ThreadsWithin
import Verif.Proofs.ThreadsCalls
import Verif.Proofs.ThreadsViewsRun
/- Every call, when it is alone, does what the functions on strings do. -/
namespace Ystring.Thr
open Ptr Spec

theorem alone_map {α β : Type} (f : β → α) (p : Prog β) (m : Mem) :
    alone (Spec.Prog.map f p) m = ((alone p m).1.map f, (alone p m).2) := by
  unfold Spec.Prog.map
  rw [alone_bind]
  obtain ⟨r, m'⟩ := alone p m
  cases r <;> rfl

theorem map_map {α β γ : Type} (f : α → β) (g : β → γ) (x : Res α) : (x.map f).map g = x.map fun a => g (f a) := by
  cases x <;> rfl

theorem outcome_call (c : Call) (h : c.Proper) (m : Mem) :
    (alone c.prog m).1 = c.outcome m ∧ c.leaves m (alone c.prog m).2 := by
  cases c with
  | decodeNext it last =>
    have h' : it ≤ last := h ⟨it, last⟩ (by simp [Call.args])
    simp only [Call.prog, alone_map, run_decodeNext m it last it (Nat.le_refl _) h', map_map]
    exact ⟨rfl, trivial⟩
  | decodePrev first it =>
    have h' : first ≤ it := h ⟨first, it⟩ (by simp [Call.args])
    simp only [Call.prog, alone_map, run_decodePrev m first it it h' (Nat.le_refl _), map_map]
    exact ⟨rfl, trivial⟩
  | skipNext it last =>
    have h' : it ≤ last := h ⟨it, last⟩ (by simp [Call.args])
    simp only [Call.prog, alone_map, run_skipNext m it last it (Nat.le_refl _) h']
    exact ⟨rfl, trivial⟩
  | isValidUtf8 r =>
    have h' := h r (by simp [Call.args])
    simp only [Call.prog, alone_map, Thr.isValidUtf8, run_isValidUtf8Loop m r.first r.last _ r.first (Nat.le_refl _) h', Call.outcome,
      Ystring.isValidUtf8, text, bytes_length]
    exact ⟨trivial, trivial⟩
  | toUtf32 r =>
    have h' := h r (by simp [Call.args])
    simp only [Call.prog, alone_map, Thr.toUtf32, run_toUtf32Loop m r.first r.last _ r.first _ (Nat.le_refl _) h', Call.outcome,
      Ystring.toUtf32, text, bytes_length]
    exact ⟨trivial, trivial⟩
  | contains r chr =>
    have h' := h r (by simp [Call.args])
    simp only [Call.prog, alone_map, Thr.contains, run_containsLoop m r.first r.last _ _ r.first (Nat.le_refl _) h', Call.outcome,
      Ystring.contains, text, bytes_length]
    exact ⟨trivial, trivial⟩
  | countCodepoints r =>
    have h' := h r (by simp [Call.args])
    simp only [Call.prog, alone_map, Thr.countCodepoints, run_countCodepointsLoop m r.first r.last _ r.first _ (Nat.le_refl _) h',
      Call.outcome, Ystring.countCodepoints, text, bytes_length]
    exact ⟨trivial, trivial⟩
  | findFirstWhere r pred o =>
    have h' := h r (by simp [Call.args])
    refine ⟨?_, trivial⟩
    simp only [Call.prog, alone_map, Call.outcome]
    congr 1
    unfold Thr.findFirstWhere Ystring.findFirstWhere iterAt text
    by_cases ho : o > r.last - r.first
    · rw [alone_err (alone_ptr_bad m (by omega)), if_pos (by rw [bytes_length]; exact ho)]; rfl
    · rw [alone_ok (alone_ptr m (by omega) (by omega)), if_neg (by rw [bytes_length]; exact ho), ok_bind,
        run_findFirstWhereLoop m r.first r.last _ _ _ _ (by omega) (by omega) (by omega) (by omega), bytes_length, bytes_drop]
  | findLastWhere r pred o =>
    have h' := h r (by simp [Call.args])
    refine ⟨?_, trivial⟩
    simp only [Call.prog, alone_map, Call.outcome]
    congr 1
    unfold Thr.findLastWhere Ystring.findLastWhere text
    dsimp only
    rw [alone_ok (alone_ptr m (by omega) (by omega)),
      run_findLastWhereLoop m r.first r.last _ _ _ _ (by omega) (by omega) (by omega) (by omega), bytes_length, bytes_take m (by omega)]
  | toLower r =>
    have h' := h r (by simp [Call.args])
    simp only [Call.prog, alone_map, Thr.toLower, run_toLowerLoop m r.first r.last _ r.first _ (Nat.le_refl _) h', Call.outcome,
      Ystring.toLower, text, bytes_length]
    exact ⟨trivial, trivial⟩
  | toUpper r =>
    have h' := h r (by simp [Call.args])
    simp only [Call.prog, alone_map, Thr.toUpper, run_toUpperLoop m r.first r.last _ r.first _ (Nat.le_refl _) h', Call.outcome,
      Ystring.toUpper, text, bytes_length]
    exact ⟨trivial, trivial⟩
  | compare r r' =>
    have h' := h r (by simp [Call.args])
    have h'' := h r' (by simp [Call.args])
    simp only [Call.prog, alone_map, Thr.compare,
      run_compareLoop m r.first r.last r'.first r'.last _ r.first r'.first (Nat.le_refl _) h' (Nat.le_refl _) h'', Call.outcome,
      CI.compare, text, bytes_length]
    exact ⟨trivial, trivial⟩
  | skipPrev first it =>
    have h' : first ≤ it := h ⟨first, it⟩ (by simp [Call.args])
    simp only [Call.prog, alone_map, run_skipPrev m first it it h' (Nat.le_refl _), map_map]
    exact ⟨rfl, trivial⟩
  | toTitle r =>
    have h' := h r (by simp [Call.args])
    simp only [Call.prog, alone_map, Thr.toTitle, run_toTitleLoop m r.first r.last _ r.first _ _ (Nat.le_refl _) h', Call.outcome,
      Ystring.toTitle, text, bytes_length]
    exact ⟨trivial, trivial⟩
  | equal r r' =>
    have h' := h r (by simp [Call.args])
    have h'' := h r' (by simp [Call.args])
    simp only [Call.prog, alone_map, Thr.equal,
      run_equalLoop m r.first r.last r'.first r'.last _ r.first r'.first (Nat.le_refl _) h' (Nat.le_refl _) h'', Call.outcome,
      CI.equal, text, bytes_length]
    exact ⟨trivial, trivial⟩
  | less r r' =>
    have h' := h r (by simp [Call.args])
    have h'' := h r' (by simp [Call.args])
    simp only [Call.prog, alone_map, Thr.less,
      run_lessLoop m r.first r.last r'.first r'.last _ r.first r'.first (Nat.le_refl _) h' (Nat.le_refl _) h'', Call.outcome,
      CI.less, text, bytes_length]
    exact ⟨trivial, trivial⟩
  | startsWith r r' =>
    have h' := h r (by simp [Call.args])
    have h'' := h r' (by simp [Call.args])
    simp only [Call.prog, alone_map, run_startsWith m r.first r.last r'.first r'.last h' h'', Call.outcome, text]
    exact ⟨trivial, trivial⟩
  | endsWith r r' =>
    have h' := h r (by simp [Call.args])
    have h'' := h r' (by simp [Call.args])
    simp only [Call.prog, alone_map, run_endsWith m r.first r.last r'.first r'.last h' h'', Call.outcome, text]
    exact ⟨trivial, trivial⟩
  | findFirst r r' o =>
    have h' := h r (by simp [Call.args])
    have h'' := h r' (by simp [Call.args])
    simp only [Call.prog, alone_map, run_findFirst m r.first r.last r'.first r'.last o h' h'', Call.outcome, text]
    exact ⟨trivial, trivial⟩
  | findLast r r' o =>
    have h' := h r (by simp [Call.args])
    have h'' := h r' (by simp [Call.args])
    simp only [Call.prog, alone_map, run_findLast m r.first r.last r'.first r'.last o h' h'', Call.outcome, text]
    exact ⟨trivial, trivial⟩
  | replaceInvalidUtf8 r chr =>
    have h' := h r (by simp [Call.args])
    simp only [Call.prog, alone_map, Thr.replaceInvalidUtf8,
      run_replaceInvalidLoop m r.first r.last _ _ r.first r.first _ (Nat.le_refl _) (Nat.le_refl _) h', Call.outcome,
      Ystring.replaceInvalidUtf8, text, bytes_length]
    exact ⟨trivial, trivial⟩
  | escapeJson r =>
    have h' := h r (by simp [Call.args])
    simp only [Call.prog, alone_map, Thr.escapeJson, run_escapeJsonLoop m r.first r.last h', Call.outcome,
      Ystring.escapeJson, text, bytes_length]
    exact ⟨trivial, trivial⟩
  | encodeUtf8 r chr =>
    have h' := h r (by simp [Call.args, Call.buffers])
    obtain ⟨m', h1, h2⟩ := run_encodeUtf8Buf m r.first r.last chr h'
    simp only [Call.prog, alone_map, h1, Call.outcome, Call.leaves, text]
    exact ⟨rfl, _, h2, List.drop_suffix _ _⟩
  | unescape r =>
    have h' := h r (by simp [Call.args, Call.buffers])
    simp only [Call.prog, alone_map, Call.outcome, Call.leaves, text, Ystring.unescapeBuf, bytes_length, Thr.unescape]
    obtain ⟨m', n, h1, h2⟩ | ⟨m', er, h1, h2⟩ := run_unescapeLoop r.first r.last h' (r.last - r.first + 1) m 0 0
    · rw [h1, h2]
      refine ⟨rfl, fun buf k e => ?_⟩
      injection e with e
      exact congrArg Prod.fst e
    · rw [h1, h2]
      exact ⟨rfl, fun buf k e => by cases e⟩
  | countChars r =>
    have h' := h r (by simp [Call.args])
    simp only [Call.prog, alone_map, Thr.countChars, run_countCharsLoop m r.first r.last h', Call.outcome, Ystring.countChars, text, bytes_length]
    exact ⟨trivial, trivial⟩
  | getCharPos r pos =>
    have h' := h r (by simp [Call.args])
    simp only [Call.prog, alone_map, run_getCharPos m r.first r.last h', Call.outcome, text]
    exact ⟨trivial, trivial⟩
  | getCharRange r pos =>
    have h' := h r (by simp [Call.args])
    simp only [Call.prog, alone_map, run_getCharRange m r.first r.last h', Call.outcome, text]
    exact ⟨trivial, trivial⟩
  | reverse r =>
    have h' := h r (by simp [Call.args])
    simp only [Call.prog, alone_map, Thr.reverse, run_reverseLoop m r.first r.last h', Call.outcome, Ystring.reverse, text, bytes_length]
    exact ⟨trivial, trivial⟩
  | getCodepoint r pos =>
    have h' := h r (by simp [Call.args])
    simp only [Call.prog, alone_map, run_getCodepoint m r.first r.last h', Call.outcome, text]
    exact ⟨trivial, trivial⟩
  | getCodepointPos r pos =>
    have h' := h r (by simp [Call.args])
    simp only [Call.prog, alone_map, run_getCodepointPos m r.first r.last h', Call.outcome, text]
    exact ⟨trivial, trivial⟩
  | toComposed r =>
    have h' := h r (by simp [Call.args])
    simp only [Call.prog, alone_map, run_toComposed m r.first r.last h', Call.outcome, text]
    exact ⟨trivial, trivial⟩
  | trimStartWhere r pred =>
    have h' := h r (by simp [Call.args])
    simp only [Call.prog, alone_map, run_trimStartWhere m r.first r.last h', map_map]
    exact ⟨rfl, trivial⟩
  | trimEndWhere r pred =>
    have h' := h r (by simp [Call.args])
    simp only [Call.prog, alone_map, run_trimEndWhere m r.first r.last h', map_map]
    exact ⟨rfl, trivial⟩
  | trimWhere r pred =>
    have h' := h r (by simp [Call.args])
    simp only [Call.prog, alone_map, run_trimWhere m r.first r.last h', map_map]
    exact ⟨rfl, trivial⟩
  | findFirstNewline b r o =>
    have h' := h r (by simp [Call.args])
    simp only [Call.prog, alone_map, run_findFirstNewline m r.first r.last h', Call.outcome, text]
    exact ⟨trivial, trivial⟩
  | findLastNewline b r o =>
    have h' := h r (by simp [Call.args])
    simp only [Call.prog, alone_map, run_findLastNewline m r.first r.last h', Call.outcome, text]
    exact ⟨trivial, trivial⟩
  | getCharSubstring r i j =>
    have h' := h r (by simp [Call.args])
    simp only [Call.prog, alone_map, run_getCharSubstring m r.first r.last h', map_map]
    exact ⟨rfl, trivial⟩
  | getCodepointSubstring r i j =>
    have h' := h r (by simp [Call.args])
    simp only [Call.prog, alone_map, run_getCodepointSubstring m r.first r.last h', map_map]
    exact ⟨rfl, trivial⟩

/-- what a call leaves depends on its buffers only -/
theorem leaves_agree (c : Call) {m m1 m2 : Mem} (h : ∀ a, InSome c.buffers a → m1 a = m2 a) (h1 : c.leaves m m1) : c.leaves m m2 := by
  cases c with
  | encodeUtf8 r chr =>
    have : text m1 r = text m2 r := bytes_agree fun a ha1 ha2 => h a ⟨r, by simp [Call.buffers], ha1, ha2⟩
    simp only [Call.leaves] at h1 ⊢
    rw [← this]; exact h1
  | unescape r =>
    have : text m1 r = text m2 r := bytes_agree fun a ha1 ha2 => h a ⟨r, by simp [Call.buffers], ha1, ha2⟩
    simp only [Call.leaves] at h1 ⊢
    rw [← this]; exact h1
  | _ => trivial

end Ystring.Thr
