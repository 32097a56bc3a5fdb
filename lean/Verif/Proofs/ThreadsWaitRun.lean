import Verif.Spec.ThreadsWait
import Verif.Proofs.ThreadsViewsWait
/- The number of accesses of the calls, and of threads while others change the memory -/
namespace Ystring.Thr
open Spec

variable {ι : Type} [DecidableEq ι]

theorem wp_map {α β : Type} {E : Err → Nat → Prop} {Q : β → Nat → Prop} {f : α → β} {p : Prog α} {c : Nat}
    (h : Wp E (fun a c => Q (f a) c) p c) : Wp E Q (Prog.map f p) c := Wp.bind h

/-- every call comes to its end within the number of accesses that the bound says -/
theorem wp_call (c : Call) (hp : c.Proper) (hf : c.Fits) (U : Prop) (hU : c.Robust ∨ U) : Wp (Ends U c.bound) (fun _ n => n ≤ c.bound) c.prog 0 := by
  have one : ∀ (r : Ptr.Range) (l : List Ptr.Range), c.args ++ c.buffers = l → r ∈ l → r.first ≤ r.last := fun r l e h => hp r (e ▸ h)
  cases c with
  | decodeNext it last =>
    have h : it ≤ last := one ⟨it, last⟩ _ rfl (by simp [Call.args])
    exact wp_map (Wp.mono (fun a n k => by have := k.2.2.1; show n ≤ 8; omega) (wp_decodeNext (Nat.le_refl _) h))
  | decodePrev first it =>
    have h : first ≤ it := one ⟨first, it⟩ _ rfl (by simp [Call.args])
    have hU : U := hU.elim (fun h => h.elim) id
    exact wp_map (Wp.mono (fun a n k => by have := k.2.2.1; show n ≤ 15; omega)
      (wp_decodePrev (fun c' k => ⟨by show c' ≤ 15; omega, by decide, fun _ => hU⟩) h (Nat.le_refl _)))
  | skipNext it last =>
    have h : it ≤ last := one ⟨it, last⟩ _ rfl (by simp [Call.args])
    refine wp_map (Wp.mono ?_ (wp_skipNext (Nat.le_refl _) h))
    rintro a n (⟨_, rfl⟩ | ⟨_, _, _, k, _⟩)
    · exact Nat.zero_le _
    · show n ≤ last - it
      rwa [Nat.zero_add] at k
  | isValidUtf8 r =>
    have h := one r _ rfl (by simp [Call.args])
    exact wp_map (wp_isValidUtf8Loop _ _ _ (Nat.le_refl _) h (by omega) (by omega))
  | toUtf32 r =>
    have h := one r _ rfl (by simp [Call.args])
    exact wp_map (wp_toUtf32Loop _ _ _ _ (Nat.le_refl _) h (by omega) (by omega))
  | contains r x =>
    have h := one r _ rfl (by simp [Call.args])
    exact wp_map (wp_containsLoop _ _ _ _ (Nat.le_refl _) h (by omega) (by omega))
  | countCodepoints r =>
    have h := one r _ rfl (by simp [Call.args])
    exact wp_map (wp_countCodepointsLoop _ _ _ _ (Nat.le_refl _) h (by omega) (by omega))
  | findFirstWhere r pred o =>
    have h := one r _ rfl (by simp [Call.args])
    refine wp_map ?_
    unfold findFirstWhere
    by_cases ho : r.first + o ≤ r.last
    · refine wp_ptr (by omega) ho ?_
      exact wp_findFirstWhereLoop _ _ _ _ _ (by omega) ho (by omega) (by omega)
    · refine Wp.bind ?_
      unfold ptr
      rw [if_neg (by omega)]
      refine ⟨Nat.zero_le _, by decide, fun _ => hU.elim (fun (hr : o ≤ r.last - r.first) => ?_) id⟩
      omega
  | findLastWhere r pred o =>
    have h := one r _ rfl (by simp [Call.args])
    have hU : U := hU.elim (fun h => h.elim) id
    refine wp_map ?_
    unfold findLastWhere
    refine wp_ptr (by omega) (by omega) ?_
    exact wp_findLastWhereLoop hU _ _ _ _ _ (by omega) (by omega) (by omega) (by omega)
  | toLower r =>
    have h := one r _ rfl (by simp [Call.args])
    exact wp_map (wp_toLowerLoop _ _ _ _ (Nat.le_refl _) h (by omega) (by omega))
  | toUpper r =>
    have h := one r _ rfl (by simp [Call.args])
    exact wp_map (wp_toUpperLoop _ _ _ _ (Nat.le_refl _) h (by omega) (by omega))
  | compare r r' =>
    have h := one r _ rfl (by simp [Call.args])
    have h' := one r' _ rfl (by simp [Call.args])
    exact wp_map (wp_compareLoop _ _ _ _ (Nat.le_refl _) h (Nat.le_refl _) h' (by omega) (by omega))
  | skipPrev first it =>
    have h : first ≤ it := one ⟨first, it⟩ _ rfl (by simp [Call.args])
    exact wp_map (wp_skipPrev h)
  | toTitle r =>
    have h := one r _ rfl (by simp [Call.args])
    exact wp_map (wp_toTitleLoop _ _ _ _ _ (Nat.le_refl _) h (by omega) (by omega))
  | equal r r' =>
    have h := one r _ rfl (by simp [Call.args])
    have h' := one r' _ rfl (by simp [Call.args])
    exact wp_map (wp_equalLoop _ _ _ _ (Nat.le_refl _) h (Nat.le_refl _) h' (by omega) (by omega))
  | less r r' =>
    have h := one r _ rfl (by simp [Call.args])
    have h' := one r' _ rfl (by simp [Call.args])
    exact wp_map (wp_lessLoop _ _ _ _ (Nat.le_refl _) h (Nat.le_refl _) h' (by omega) (by omega))
  | startsWith r r' =>
    have h := one r _ rfl (by simp [Call.args])
    have h' := one r' _ rfl (by simp [Call.args])
    refine wp_map (Wp.bind (Wp.mono ?_ (wp_nextMismatch (it0 := r.first) (it0' := r'.first) (c0 := 0) ?_ _ _ _ _ (Nat.le_refl _) h (Nat.le_refl _) h'
      (by omega) (by omega) (by omega) (by omega))))
    · rintro x c ⟨_, _, _, _, k⟩
      show c ≤ 2 * (r.last - r.first) + 2 * (r'.last - r'.first) + 8
      omega
    · show _ ≤ 2 * (r.last - r.first) + 2 * (r'.last - r'.first) + 8
      omega
  | endsWith r r' =>
    have h := one r _ rfl (by simp [Call.args])
    have h' := one r' _ rfl (by simp [Call.args])
    have hU : U := hU.elim (fun h => h.elim) id
    refine wp_map (Wp.bind (Wp.mono ?_ (wp_prevMismatch hU (it0 := r.last) (it0' := r'.last) (c0 := 0) ?_ _ _ _ _ h (Nat.le_refl _) h' (Nat.le_refl _)
      (by omega) (by omega) (by omega) (by omega))))
    · rintro x c ⟨_, _, _, _, k⟩
      show c ≤ 3 * (r.last - r.first) + 3 * (r'.last - r'.first) + 15
      omega
    · show _ ≤ 3 * (r.last - r.first) + 3 * (r'.last - r'.first) + 15
      omega
  | findFirst r r' o =>
    have h := one r _ rfl (by simp [Call.args])
    have h' := one r' _ rfl (by simp [Call.args])
    exact wp_map (wp_findFirst h h' o hU)
  | findLast r r' o =>
    have h := one r _ rfl (by simp [Call.args])
    have h' := one r' _ rfl (by simp [Call.args])
    exact wp_map (wp_findLast (hU.elim (fun h => h.elim) id) h h' o)
  | replaceInvalidUtf8 r x =>
    have h := one r _ rfl (by simp [Call.args])
    exact wp_map (wp_replaceInvalidLoop _ _ _ _ _ _ (Nat.le_refl _) (Nat.le_refl _) h (by omega) (by omega))
  | escapeJson r =>
    have h := one r _ rfl (by simp [Call.args])
    have hl : r.last - r.first + 12 < 2 ^ 64 := hf r (by simp [Call.args])
    exact wp_map (wp_escapeJsonLoop h hl _ _ _ _ (by omega) (by omega) (by omega))
  | encodeUtf8 r x =>
    have h := one r _ rfl (by simp [Call.buffers])
    exact wp_map (wp_encodeUtf8Buf h x)
  | unescape r =>
    have h := one r _ rfl (by simp [Call.args])
    have hU : U := hU.elim (fun h => h.elim) id
    have hl : r.last - r.first + 12 < 2 ^ 64 := hf r (by simp [Call.args])
    have : U = True := propext ⟨fun _ => trivial, fun _ => hU⟩
    subst this
    exact wp_map (any_unescapeLoop h rfl hl rfl _ 0 0 0 (by omega) (by omega) (by omega) (by omega))
  | countChars r =>
    have h := one r _ rfl (by simp [Call.args])
    have hl : r.last - r.first + 12 < 2 ^ 64 := hf r (by simp [Call.args])
    exact wp_map (wp_countCharsLoop rfl h hl _ _ _ _ (by omega) (by omega) (by omega))
  | getCharPos r pos =>
    have h := one r _ rfl (by simp [Call.args])
    have hl : r.last - r.first + 12 < 2 ^ 64 := hf r (by simp [Call.args])
    exact wp_map (wp_getCharPos rfl h hl pos hU)
  | getCharRange r pos =>
    have h := one r _ rfl (by simp [Call.args])
    have hl : r.last - r.first + 12 < 2 ^ 64 := hf r (by simp [Call.args])
    exact wp_map (wp_getCharRange rfl h hl pos hU)
  | reverse r =>
    have h := one r _ rfl (by simp [Call.args])
    have hl : r.last - r.first + 12 < 2 ^ 64 := hf r (by simp [Call.args])
    exact wp_map (wp_reverseLoop (hU.elim (fun h => h.elim) id) rfl h hl _ _ _ _ (by omega) (by omega) (by omega))
  | getCodepoint r pos =>
    have h := one r _ rfl (by simp [Call.args])
    exact wp_map (wp_getCodepoint rfl h pos hU)
  | getCodepointPos r pos =>
    have h := one r _ rfl (by simp [Call.args])
    exact wp_map (wp_getCodepointPos rfl h pos hU)
  | toComposed r =>
    have h := one r _ rfl (by simp [Call.args])
    exact wp_map (wp_toComposed (hU.elim (fun h => h.elim) id) h)
  | trimStartWhere r pred =>
    have h := one r _ rfl (by simp [Call.args])
    exact wp_map (wp_trimStartWhere h pred)
  | trimEndWhere r pred =>
    have h := one r _ rfl (by simp [Call.args])
    exact wp_map (wp_trimEndWhere (hU.elim (fun h => h.elim) id) h pred)
  | trimWhere r pred =>
    have h := one r _ rfl (by simp [Call.args])
    exact wp_map (wp_trimWhere (hU.elim (fun h => h.elim) id) h pred)
  | findFirstNewline b r o =>
    have h := one r _ rfl (by simp [Call.args])
    have hl : r.last - r.first + 12 < 2 ^ 64 := hf r (by simp [Call.args])
    exact wp_map (wp_findFirstNewline h hl b o hU)
  | findLastNewline b r o =>
    have h := one r _ rfl (by simp [Call.args])
    exact wp_map (wp_findLastNewline (hU.elim (fun h => h.elim) id) h b o)
  | getCharSubstring r i j =>
    have h := one r _ rfl (by simp [Call.args])
    have hl : r.last - r.first + 12 < 2 ^ 64 := hf r (by simp [Call.args])
    exact wp_map (wp_getCharSubstring h hl i j hU)
  | getCodepointSubstring r i j =>
    have h := one r _ rfl (by simp [Call.args])
    exact wp_map (wp_getCodepointSubstring h i j hU)

/-- a thread on its way: `n` accesses have been made -/
theorem wp_afterAll {α : Type} {E : Err → Nat → Prop} {Q : α → Nat → Prop}
    (i : ι) (σ : List (Event ι)) : ∀ (s : State ι α) (c : Nat), Wp E Q (s.left i) c →
    ∃ c', Wp E Q ((s.afterAll σ).left i) c' ∧ ((∃ r, (s.afterAll σ).left i = .done r) ∨ c' = c + accesses i σ) := by
  induction σ with
  | nil => exact fun s c h => ⟨c, h, .inr rfl⟩
  | cons e σ ih =>
    intro s c h
    show ∃ c', Wp E Q (((s.react e).afterAll σ).left i) c' ∧ _
    cases e with
    | disturb m => exact ih ⟨s.left, m⟩ c h
    | access j =>
      by_cases hj : j = i
      · subst hj
        cases hs : s.left j with
        | done r =>
          have e1 : s.step j = s := by unfold State.step; rw [hs]
          obtain ⟨c', h1, h2⟩ := ih s c h
          have e2 : s.afterAll (.access j :: σ) = s.afterAll σ := by
            show (s.step j).afterAll σ = _; rw [e1]
          refine ⟨c', by show Wp E Q (((s.step j).afterAll σ).left j) c'; rw [e1]; exact h1, .inl ?_⟩
          rw [e2]
          have stay : ∀ (σ : List (Event ι)) (s : State ι α), s.left j = .done r → (s.afterAll σ).left j = .done r := by
            intro σ
            induction σ with
            | nil => exact fun s h => h
            | cons e σ ih =>
              intro s h
              refine ih (s.react e) ?_
              cases e with
              | disturb m => exact h
              | access k =>
                show (s.step k).left j = _
                unfold State.step
                split
                · exact h
                · rename_i a k' e'
                  show (if j = k then _ else _) = _
                  rw [if_neg (by intro e; subst e; rw [h] at e'; cases e')]
                  exact h
                · rename_i a x p e'
                  show (if j = k then _ else _) = _
                  rw [if_neg (by intro e; subst e; rw [h] at e'; cases e')]
                  exact h
          exact ⟨r, stay σ s hs⟩
        | load a k =>
          rw [hs] at h
          have e1 : (s.step j).left j = k (s.mem a) := by unfold State.step; rw [hs]; exact if_pos rfl
          obtain ⟨c', h1, h2⟩ := ih (s.step j) (c + 1) (by rw [e1]; exact h _)
          exact ⟨c', h1, h2.imp id fun h2 => by rw [h2]; show c + 1 + _ = c + ((if j = j then 1 else 0) + _); rw [if_pos rfl]; omega⟩
        | store a x p =>
          rw [hs] at h
          have e1 : (s.step j).left j = p := by unfold State.step; rw [hs]; exact if_pos rfl
          obtain ⟨c', h1, h2⟩ := ih (s.step j) (c + 1) (by rw [e1]; exact h)
          exact ⟨c', h1, h2.imp id fun h2 => by rw [h2]; show c + 1 + _ = c + ((if j = j then 1 else 0) + _); rw [if_pos rfl]; omega⟩
      · have e1 : (s.step j).left i = s.left i := by
          unfold State.step
          split
          · rfl
          · exact if_neg (fun e => hj e.symm)
          · exact if_neg (fun e => hj e.symm)
        obtain ⟨c', h1, h2⟩ := ih (s.step j) c (by rw [e1]; exact h)
        exact ⟨c', h1, h2.imp id fun h2 => by rw [h2]; show c + _ = c + ((if j = i then 1 else 0) + _); rw [if_neg hj]; omega⟩

/-- as long as a thread is not at its end, it has made fewer accesses than the bound says -/
theorem wp_le {α : Type} {E : Err → Nat → Prop} {Q : α → Nat → Prop} {B : Nat} (hE : ∀ e c, E e c → c ≤ B) (hQ : ∀ a c, Q a c → c ≤ B) :
    ∀ {p : Prog α} {c : Nat}, Wp E Q p c → c ≤ B ∧ (c = B → ∃ r, p = .done r) := by
  intro p
  induction p with
  | done r =>
    intro c h
    cases r with
    | ok a => exact ⟨hQ _ _ h, fun _ => ⟨_, rfl⟩⟩
    | error e => exact ⟨hE _ _ h, fun _ => ⟨_, rfl⟩⟩
  | load a k ih => exact fun h => have := (ih 0 (h 0)).1; ⟨by omega, by omega⟩
  | store a x p ih => exact fun h => have := (ih h).1; ⟨by omega, by omega⟩


end Ystring.Thr
