import Verif.Spec.Traverse
import Verif.Props.Split
/-
Property theorem C84: a complete walk with a TokenIterator.
-/
namespace Ystring
open Spec

theorem traverse_ended (finder : Str → Res Subrange) (fuel : Nat) (s : Str) :
    traverse finder (fuel + 1) ⟨s, ⟨npos, 0⟩⟩ = .ok [] := by
  rw [traverse]
  simp [TokenIterator.next, Subrange.nonempty, Subrange.start, npos, bind, Except.bind]

theorem traverse_spec (finder : Str → Res Subrange)
    (hf : ∀ s, ∃ r, finder s = .ok r ∧ (r.length = 0 ∨ r.offset + r.length ≤ s.length)) (fuel : Nat) :
    ∀ (it : TokenIterator) (s : Str), s.length + 1 < fuel → s.length < SIZE_MOD → Ready it s →
    ∃ ps last, traverse finder fuel it = .ok (walk ps last) ∧ unsplit ps last = s ∧ (∃ o, finder last = .ok ⟨o, 0⟩) ∧
      ∀ rs p t qs, ps = rs ++ (p, t) :: qs → t ≠ [] ∧ finder (unsplit ((p, t) :: qs) last) = .ok ⟨p.length, t.length⟩ := by
  induction fuel with
  | zero => intro it s h; omega
  | succ fuel ih =>
    intro it s hfu hs hr
    obtain ⟨⟨o, l⟩, h1, h2⟩ := hf s
    rw [traverse, next_ready hr, h1]
    simp only [bind, Except.bind]
    by_cases hl : l = 0
    · subst hl
      refine ⟨[], s, ?_, rfl, ⟨o, h1⟩, by simp⟩
      obtain ⟨f, rfl⟩ : ∃ f, fuel = f + 1 := ⟨fuel - 1, by omega⟩
      have := traverse_ended finder f s
      simp only [Subrange.nonempty, bne_self_eq_false, Bool.not_false, if_true]
      simp only [TokenIterator.part, TokenIterator.remainder, Subrange.nonempty, Subrange.start]
      simp [npos] at this ⊢
      rw [this]
      simp [walk]
    · simp only [hl, false_or] at h2
      have e1 : (s.take o).length = o := by simp; omega
      have e2 : ((s.drop o).take l).length = l := by simp; omega
      have e : s = s.take o ++ (s.drop o).take l ++ s.drop (o + l) := by
        rw [List.append_assoc, ← List.drop_drop, List.take_append_drop, List.take_append_drop]
      have ht : (s.drop o).take l ≠ [] := by intro h; rw [h] at e2; simp at e2; omega
      have hstop : Subrange.stop ⟨o, l⟩ = o + l := by
        unfold Subrange.stop sizeAdd; exact Nat.mod_eq_of_lt (by simp only; omega)
      have hne : Subrange.nonempty ⟨o, l⟩ = true := by simp [Subrange.nonempty, hl]
      have hsub : substr s (o + l) = .ok (s.drop (o + l)) := by
        unfold substr
        rw [if_neg (by omega), List.take_of_length_le]
        unfold SIZE_MOD at hs; unfold npos; simp; omega
      obtain ⟨ps, last, k1, k2, k3, k4⟩ := ih ⟨s, ⟨o, l⟩⟩ (s.drop (o + l)) (by simp; omega) (by simp; omega)
        (.inl ⟨hne, by rw [hstop]; exact hsub⟩)
      refine ⟨(s.take o, (s.drop o).take l) :: ps, last, ?_, ?_, k3, ?_⟩
      · rw [if_neg (by simp [hne])]
        simp only [if_true]
        simp only [TokenIterator.part, TokenIterator.remainder]
        rw [if_pos hne, if_pos (Or.inl hne), hstop, hsub]
        unfold substr
        rw [if_neg (by omega)]
        simp only [k1]
        simp [walk, k2, Subrange.start]
      · simp only [unsplit, k2]; exact e.symm
      · intro rs p t qs h
        cases rs with
        | nil =>
          simp only [List.nil_append, List.cons.injEq, Prod.mk.injEq] at h
          obtain ⟨⟨rfl, rfl⟩, rfl⟩ := h
          refine ⟨ht, ?_⟩
          simp only [unsplit, k2]
          rw [← e, e1, e2, h1]
        | cons r rs =>
          simp only [List.cons_append, List.cons.injEq] at h
          exact k4 rs p t qs h.2

theorem walk_fst (ps : List (Str × Str)) (last : Str) : (walk ps last).map (·.1) = ps.map (·.1) ++ [last] := by
  induction ps with
  | nil => rfl
  | cons x ps ih => simp [walk, ih]

/-- The pieces are determined by the finder. -/
theorem pieces_unique (finder : Str → Res Subrange) : ∀ (ps : List (Str × Str)) (last : Str) (ps' : List (Str × Str)) (last' : Str),
    unsplit ps last = unsplit ps' last' → (∃ o, finder last = .ok ⟨o, 0⟩) → (∃ o, finder last' = .ok ⟨o, 0⟩) →
    (∀ rs p t qs, ps = rs ++ (p, t) :: qs → t ≠ [] ∧ finder (unsplit ((p, t) :: qs) last) = .ok ⟨p.length, t.length⟩) →
    (∀ rs p t qs, ps' = rs ++ (p, t) :: qs → t ≠ [] ∧ finder (unsplit ((p, t) :: qs) last') = .ok ⟨p.length, t.length⟩) →
    ps = ps' ∧ last = last' := by
  intro ps
  induction ps with
  | nil =>
    intro last ps' last' e ⟨o, h1⟩ _ _ h4
    cases ps' with
    | nil => exact ⟨rfl, e⟩
    | cons x ps' =>
      obtain ⟨p, t⟩ := x
      have := h4 [] p t ps' rfl
      rw [← e] at this
      simp only [unsplit, h1] at this
      obtain ⟨ht, h⟩ := this
      injection h with h; injection h with _ h
      exact absurd (List.length_eq_zero_iff.mp h.symm) ht
  | cons x ps ih =>
    obtain ⟨p, t⟩ := x
    intro last ps' last' e h1 h2 h3 h4
    have a := h3 [] p t ps rfl
    cases ps' with
    | nil =>
      obtain ⟨o, h2⟩ := h2
      rw [e] at a
      simp only [unsplit, h2] at a
      obtain ⟨ht, h⟩ := a
      injection h with h; injection h with _ h
      exact absurd (List.length_eq_zero_iff.mp h.symm) ht
    | cons x ps' =>
      obtain ⟨p', t'⟩ := x
      have b := h4 [] p' t' ps' rfl
      rw [e, b.2] at a
      obtain ⟨_, h⟩ := a
      injection h with h; injection h with hp ht
      simp only [unsplit, List.append_assoc] at e
      obtain ⟨hp1, e1⟩ := List.append_inj e hp.symm
      obtain ⟨ht1, e2⟩ := List.append_inj e1 ht.symm
      subst hp1 ht1
      obtain ⟨rfl, rfl⟩ := ih last ps' last' e2 h1 h2 (fun rs q v qs h => h3 ((p, t) :: rs) q v qs (by simp [h]))
        (fun rs q v qs h => h4 ((p, t) :: rs) q v qs (by simp [h]))
      exact ⟨rfl, rfl⟩

/-- C84: for every finder that reports ranges inside the string it is given, the walk ends, and the pieces it shows are the
string cut at the separators: there are pieces `ps` with non-empty separators between them and a last piece in which the
finder finds nothing; every separator is what the finder reports for the text from the beginning of its piece on; `part()`
shows the pieces in order and `remainder()` the text after their separators (nothing for the last piece). -/
theorem C84_walk (s : Str) (hs : s.length < SIZE_MOD) (finder : Str → Res Subrange)
    (hf : ∀ s, ∃ r, finder s = .ok r ∧ (r.length = 0 ∨ r.offset + r.length ≤ s.length)) :
    ∃ ps last, traverse finder (s.length + 2) (TokenIterator.mk' s) = .ok (walk ps last) ∧ unsplit ps last = s ∧
      (∃ o, finder last = .ok ⟨o, 0⟩) ∧
      ∀ rs p t qs, ps = rs ++ (p, t) :: qs → t ≠ [] ∧ finder (unsplit ((p, t) :: qs) last) = .ok ⟨p.length, t.length⟩ :=
  traverse_spec finder hf _ _ s (by omega) hs (.inr ⟨rfl, rfl⟩)

/-- C84: the parts seen in the walk are the list that `split_where` returns (without a limit). -/
theorem C84_split_where (s : Str) (hs : s.length + 1 < npos) (finder : Str → Res Subrange)
    (hf : ∀ s, ∃ r, finder s = .ok r ∧ (r.length = 0 ∨ r.offset + r.length ≤ s.length)) :
    ∃ w, traverse finder (s.length + 2) (TokenIterator.mk' s) = .ok w ∧ splitWhere s finder {} = .ok (w.map (·.1)) := by
  have hs' : s.length < SIZE_MOD := by unfold npos at hs; unfold SIZE_MOD; omega
  obtain ⟨ps, last, h1, h2, h3, h4⟩ := C84_walk s hs' finder hf
  obtain ⟨ps', last', k1, k2, k3, k4, k5⟩ := C38_split_where s finder hf npos (by decide) false hs'
  have hlen : ∀ (ps : List (Str × Str)) (last : Str),
      (∀ rs p t qs, ps = rs ++ (p, t) :: qs → t ≠ []) → ps.length ≤ (unsplit ps last).length := by
    intro ps last
    induction ps with
    | nil => simp
    | cons x ps ih =>
      obtain ⟨p, t⟩ := x
      intro h
      have a := h [] p t ps rfl
      have b := ih fun rs p' t' qs e => h ((p, t) :: rs) p' t' qs (by simp [e])
      have : 0 < t.length := List.length_pos_iff.mpr a
      simp only [unsplit, List.length_append, List.length_cons]
      omega
  have k4' : ∃ o, finder last' = .ok ⟨o, 0⟩ := by
    rcases k4 with k4 | k4
    · have := hlen ps' last' fun rs p t qs e => (k5 rs p t qs e).1
      rw [k2] at this
      simp [keep] at k4
      omega
    · exact k4
  obtain ⟨rfl, rfl⟩ := pieces_unique finder ps last ps' last' (by rw [h2, k2]) h3 k4' h4 k5
  refine ⟨_, h1, ?_⟩
  rw [walk_fst, k1]
  simp [keep]

example : traverse (fun s => findFirst s [0x2C]) 6 (TokenIterator.mk' [0x61, 0x2C, 0x2C, 0x62]) =
    .ok [([0x61], [0x2C, 0x62]), ([], [0x62]), ([0x62], [])] := by decide +kernel

end Ystring
