import Verif.Spec.Library
import Verif.Proofs.Search
import Verif.Proofs.CharClass
import Verif.Proofs.ConvertCase
import Verif.Proofs.Normalize
import Verif.Proofs.Compose
/- The code gives the same results with every conforming standard library. -/
namespace Ystring

open Spec

theorem firstAt_unique {n : Nat} {good : Nat → Prop} {i j : Nat} (hi : FirstAt n good i) (hj : FirstAt n good j) : i = j := by
  rcases Nat.lt_trichotomy i j with h | h | h
  · have := hj.2 i h
    rcases hi.1 with ⟨_, g⟩ | e
    · exact absurd g this
    · rcases hj.1 with ⟨l, _⟩ | e' <;> omega
  · exact h
  · have := hi.2 j h
    rcases hj.1 with ⟨_, g⟩ | e
    · exact absurd g this
    · rcases hi.1 with ⟨l, _⟩ | e' <;> omega

theorem splits_unique {α : Type} {l : List α} {less : α → Bool} {i j : Nat} (hi : PartitionPoint l less i) (hj : PartitionPoint l less j) :
    i = j := by
  have key : ∀ {i j : Nat}, PartitionPoint l less i → PartitionPoint l less j → ¬ i < j := by
    intro i j hi hj h
    have hl : i < l.length := Nat.lt_of_lt_of_le h hj.1
    have h1 := hj.2.1 l[i] (List.mem_take_iff_getElem.mpr ⟨i, by omega, rfl⟩)
    have h2 := hi.2.2 l[i] (List.mem_drop_iff_getElem.mpr ⟨0, by omega, by simp⟩)
    simp [h1] at h2
  have := key hi hj
  have := key hj hi
  omega

theorem stdFindIf_firstAt {α : Type} (l : List α) (p : α → Bool) :
    FirstAt l.length (fun i => ∃ x, l[i]? = some x ∧ p x = true) (stdFindIf p l) := by
  induction l with
  | nil => exact ⟨Or.inr rfl, fun j h => by simp [stdFindIf] at h⟩
  | cons b t ih =>
    unfold stdFindIf
    by_cases hb : p b = true
    · rw [if_pos hb]
      exact ⟨Or.inl ⟨by simp, b, by simp, hb⟩, fun j h => by omega⟩
    · rw [if_neg hb]
      refine ⟨?_, ?_⟩
      · rcases ih.1 with ⟨h, g⟩ | h
        · exact Or.inl ⟨by simpa using h, by simpa using g⟩
        · exact Or.inr (by simp [h])
      · intro j hj
        cases j with
        | zero => rintro ⟨x, hx, hp⟩; simp at hx; subst hx; exact hb hp
        | succ j => simpa using ih.2 j (by omega)

theorem stdSearch_firstAt (s cmp : Str) : FirstAt s.length (fun i => cmp <+: s.drop i) (stdSearch cmp s) := by
  induction s with
  | nil => exact ⟨Or.inr rfl, fun j h => by simp [stdSearch] at h⟩
  | cons b t ih =>
    unfold stdSearch
    by_cases hb : cmp.isPrefixOf (b :: t) = true
    · rw [if_pos hb]
      exact ⟨Or.inl ⟨by simp, by simpa using hb⟩, fun j h => by omega⟩
    · rw [if_neg hb]
      refine ⟨?_, ?_⟩
      · rcases ih.1 with ⟨h, g⟩ | h
        · exact Or.inl ⟨by simpa using h, by simpa using g⟩
        · exact Or.inr (by simp [h])
      · intro j hj
        cases j with
        | zero => simpa using hb
        | succ j => simpa using ih.2 j (by omega)

/-- sorted ranges are partitioned, and the model's bisection finds the place -/
theorem lowerBound_splits {α : Type} (l : List α) (d : α) (k : α → Nat) (key : Nat)
    (hs : l.Pairwise (fun a b => k a ≤ k b)) :
    PartitionPoint l (fun x => decide (k x < key)) (lowerBound (fun i => decide (k (l.getD i d) < key)) l.length) := by
  have mono : ∀ i j, i < j → j < l.length → decide (k (l.getD j d) < key) = true →
      decide (k (l.getD i d) < key) = true := by
    intro i j hij hj h
    have h1 := List.pairwise_iff_getElem.mp hs i j (by omega) hj hij
    simp only [decide_eq_true_eq] at h ⊢
    rw [getD_getElem _ _ (by omega)] at h ⊢
    omega
  obtain ⟨h1, h2, h3⟩ := lowerBound_spec _ _ mono
  refine ⟨h1, ?_, ?_⟩
  · intro x hx
    obtain ⟨i, hi, rfl⟩ := List.mem_take_iff_getElem.mp hx
    have := h2 i (by omega)
    rwa [getD_getElem _ _ (by omega)] at this
  · intro x hx
    obtain ⟨i, hi, rfl⟩ := List.mem_drop_iff_getElem.mp hx
    have := h3 _ (Nat.le_add_right _ i) (by omega)
    rwa [getD_getElem _ _ (by omega)] at this

namespace Lib

variable {L : Algorithms}

theorem findIf_eq (h : Conforms L) {α : Type} (l : List α) (p : α → Bool) : L.findIf l p = stdFindIf p l :=
  firstAt_unique (h.findIf l p) (stdFindIf_firstAt l p)

theorem search_eq (h : Conforms L) (s cmp : Str) : L.search s cmp = stdSearch cmp s :=
  firstAt_unique (h.search s cmp) (stdSearch_firstAt s cmp)

theorem anyOf_eq (h : Conforms L) {α : Type} (l : List α) (p : α → Bool) : L.anyOf l p = l.any p := by
  rw [Bool.eq_iff_iff, h.anyOf, List.any_eq_true]

theorem lowerBound_eq (h : Conforms L) {α : Type} (l : List α) (d : α) (k : α → Nat) (key : Nat)
    (hs : l.Pairwise (fun a b => k a ≤ k b)) :
    L.lowerBound l (fun x => decide (k x < key)) = lowerBound (fun i => decide (k (l.getD i d) < key)) l.length :=
  splits_unique (h.lowerBound _ _ ⟨_, lowerBound_splits l d k key hs⟩) (lowerBound_splits l d k key hs)

theorem mismatch_iff (h : Conforms L) (a b : Str) : L.mismatch a b = b.length ↔ b.isPrefixOf a = true := by
  have hm := h.mismatch a b
  rw [List.isPrefixOf_iff_prefix]
  constructor
  · intro e
    rw [e] at hm
    have hl : b.length ≤ a.length := by
      rcases hm.1 with ⟨l, _⟩ | e' <;> omega
    rw [List.prefix_iff_eq_take]
    apply List.ext_getElem (by simp; omega)
    intro i h1 h2
    have := hm.2 i h1
    simp only [ne_eq, Decidable.not_not] at this
    rw [List.getElem?_eq_getElem (by omega), List.getElem?_eq_getElem h1, Option.some.injEq] at this
    simp [this]
  · rintro ⟨t, rfl⟩
    rcases hm.1 with ⟨l, g⟩ | e
    · exfalso
      simp only [List.length_append] at l
      apply g
      rw [List.getElem?_append_left (by omega)]
    · rw [e]; simp

theorem get_end {α : Type} (l : List α) {i : Nat} (h : i = l.length) : l[i]? = none := by rw [h]; simp

theorem get_inside {α : Type} (l : List α) (d : α) {i : Nat} (hi : i ≤ l.length) (h : i ≠ l.length) :
    l[i]? = some (l.getD i d) := by
  rw [List.getElem?_eq_getElem (by omega), getD_getElem _ _ (by omega)]

theorem lb_le {α : Type} (l : List α) (d : α) (k : α → Nat) (key : Nat) (hs : l.Pairwise (fun a b => k a ≤ k b)) :
    lowerBound (fun i => decide (k (l.getD i d) < key)) l.length ≤ l.length := (lowerBound_splits l d k key hs).1

theorem getCharClass_eq (h : Conforms L) (c : Char32) : getCharClass L c = Ystring.getCharClass c := by
  have hs := pairwise_of_isSortedBy table_sorted
  unfold getCharClass Ystring.getCharClass charClassShift charClassShiftIn
  by_cases h1 : c < 128
  · rw [if_pos h1, if_pos h1]
  · rw [if_neg h1, if_neg h1]
    have e := lowerBound_eq h COMPLETE_CHAR_CLASSES 0 id (c <<< 11).toNat hs
    have e2 := lb_le COMPLETE_CHAR_CLASSES 0 id (c <<< 11).toNat hs
    simp only [id] at e e2
    dsimp only
    rw [e]
    generalize lowerBound (fun i => decide (COMPLETE_CHAR_CLASSES.getD i 0 < (c <<< 11).toNat)) COMPLETE_CHAR_CLASSES.length = i
      at e2
    by_cases hi : i = COMPLETE_CHAR_CLASSES.length
    · rw [get_end _ hi, if_pos hi]; rfl
    · rw [get_inside _ 0 e2 hi, if_neg hi]

theorem findInCompactMapping_eq (h : Conforms L) (t : List CompactRow) (hs : isSortedBy (·.1) t = true) (c : Char32) :
    findInCompactMapping L t c = Ystring.findInCompactMapping t c := by
  have hs := pairwise_of_isSortedBy hs
  unfold findInCompactMapping Ystring.findInCompactMapping
  dsimp only
  have e2 := lb_le t (0, 0, 0, 0) (·.1) (c &&& SEGMENT_MASK).toNat hs
  rw [lowerBound_eq h t (0, 0, 0, 0) (·.1) _ hs]
  generalize lowerBound _ t.length = i at e2
  by_cases hi : i = t.length
  · rw [get_end _ hi, if_pos hi]
  · rw [get_inside _ (0, 0, 0, 0) e2 hi, if_neg hi]

theorem findInMapping_eq (h : Conforms L) (t : List (Nat × Nat)) (hs : isSortedBy (·.1) t = true) (c : Char32) :
    findInMapping L t c = Ystring.findInMapping t c := by
  have hs := pairwise_of_isSortedBy hs
  unfold findInMapping Ystring.findInMapping
  dsimp only
  have e2 := lb_le t (0, 0) (·.1) c.toNat hs
  rw [lowerBound_eq h t (0, 0) (·.1) _ hs]
  generalize lowerBound _ t.length = i at e2
  by_cases hi : i = t.length
  · rw [get_end _ hi, if_pos hi]
  · rw [get_inside _ (0, 0) e2 hi, if_neg hi]

theorem convert_eq (h : Conforms L) (t : List CompactRow) (u : List (Nat × Nat)) (ht : isSortedBy (·.1) t = true)
    (hu : isSortedBy (·.1) u = true) (c : Char32) : convert L t u c = Ystring.convert t u c := by
  unfold convert Ystring.convert
  rw [findInCompactMapping_eq h t ht, findInMapping_eq h u hu]
  cases Ystring.findInCompactMapping t c with
  | some c => rfl
  | none => cases Ystring.findInMapping u c <;> rfl

theorem toLowerChar_eq (h : Conforms L) (c : Char32) : toLowerChar L c = Ystring.toLowerChar c := by
  unfold toLowerChar Ystring.toLowerChar
  rw [convert_eq h _ _ lower_wf.2.1 lower_wf.2.2.1]

theorem toTitleChar_eq (h : Conforms L) (c : Char32) : toTitleChar L c = Ystring.toTitleChar c := by
  unfold toTitleChar Ystring.toTitleChar
  rw [convert_eq h _ _ title_wf.2.1 title_wf.2.2.1]

theorem toUpperChar_eq (h : Conforms L) (c : Char32) : toUpperChar L c = Ystring.toUpperChar c := by
  unfold toUpperChar Ystring.toUpperChar
  rw [convert_eq h _ _ upper_wf.2.1 upper_wf.2.2.1]

theorem findDecomposed_eq (h : Conforms L) (c : Char32) : findDecomposed L c = Ystring.findDecomposed c := by
  have hs := (pairwise_of_incr decomposed_incr).imp (R := (· < ·)) (S := fun a b => id a ≤ id b) Nat.le_of_lt
  unfold findDecomposed Ystring.findDecomposed findDecomposedIn
  revert hs
  generalize TO_DECOMPOSED = tbl
  intro hs
  by_cases h0 : c < 0xC0
  · simp only [if_pos h0]
  simp only [if_neg h0]
  have e := lowerBound_eq h tbl 0 id (c.toNat * 2 ^ 40 % 2 ^ 64) hs
  have e2 := lb_le tbl 0 id (c.toNat * 2 ^ 40 % 2 ^ 64) hs
  simp only [id] at e e2
  rw [e]
  generalize lowerBound (fun i => decide (tbl.getD i 0 < c.toNat * 2 ^ 40 % 2 ^ 64)) tbl.length = i at e2
  by_cases h1 : i = tbl.length
  · rw [get_end _ h1, if_pos (Or.inl h1)]
  rw [get_inside _ 0 e2 h1]
  generalize tbl.getD i 0 = x
  by_cases h2 : x / 2 ^ 40 % 2 ^ 32 ≠ c.toNat
  · rw [if_pos (Or.inr h2)]
    exact if_pos h2
  · rw [if_neg (by rintro (h | h); exact h1 h; exact h2 h)]
    exact if_neg h2

theorem findComposed_eq (h : Conforms L) (c m : Char32) : findComposed L c m = Ystring.findComposed c m := by
  have hs := composed_sorted.imp (S := fun a b => id a ≤ id b) Nat.le_of_lt
  unfold findComposed Ystring.findComposed findComposedIn
  have e := lowerBound_eq h TO_COMPOSED 0 id ((c.toNat * 2 ^ 20 % 2 ^ 64 ||| m.toNat) * 2 ^ 20 % 2 ^ 64) hs
  have e2 := lb_le TO_COMPOSED 0 id ((c.toNat * 2 ^ 20 % 2 ^ 64 ||| m.toNat) * 2 ^ 20 % 2 ^ 64) hs
  simp only [id] at e e2
  dsimp only
  rw [e]
  generalize lowerBound _ TO_COMPOSED.length = i at e2
  by_cases h1 : i = TO_COMPOSED.length
  · rw [get_end _ h1, if_pos h1]
  · rw [get_inside _ 0 e2 h1, if_neg h1]

theorem caseInsensitiveEqual_eq (h : Conforms L) (a b : Char32) :
    caseInsensitiveEqual L a b = Ystring.caseInsensitiveEqual a b := by
  unfold caseInsensitiveEqual Ystring.caseInsensitiveEqual
  rw [toUpperChar_eq h, toUpperChar_eq h]

theorem caseInsensitiveLess_eq (h : Conforms L) (a b : Char32) :
    caseInsensitiveLess L a b = Ystring.caseInsensitiveLess a b := by
  unfold caseInsensitiveLess Ystring.caseInsensitiveLess
  rw [toUpperChar_eq h, toUpperChar_eq h]

theorem searchLastLoop_eq (h : Conforms L) (s cmp : Str) : ∀ it, searchLastLoop L s cmp it = Ystring.searchLastLoop s cmp it
  | 0 => by
    unfold searchLastLoop Ystring.searchLastLoop
    dsimp only
    by_cases hm : L.mismatch s cmp = cmp.length
    · rw [if_pos hm, if_pos ((mismatch_iff h _ _).mp hm), hm]
    · rw [if_neg hm, if_neg (fun hp => hm ((mismatch_iff h _ _).mpr hp))]
  | it + 1 => by
    unfold searchLastLoop Ystring.searchLastLoop
    dsimp only
    by_cases hm : L.mismatch (s.drop (it + 1)) cmp = cmp.length
    · rw [if_pos hm, if_pos ((mismatch_iff h _ _).mp hm), hm]
    · rw [if_neg hm, if_neg (fun hp => hm ((mismatch_iff h _ _).mpr hp)), searchLastLoop_eq h s cmp it]

theorem searchLast_eq (h : Conforms L) (s cmp : Str) : searchLast L s cmp = Ystring.searchLast s cmp := by
  unfold searchLast Ystring.searchLast
  dsimp only
  rw [searchLastLoop_eq h]

theorem findLast_eq (h : Conforms L) (s cmp : Str) (o : Nat) : findLast L s cmp o = Ystring.findLast s cmp o := by
  unfold findLast Ystring.findLast
  dsimp only
  rw [searchLast_eq h]

theorem findLastNLoop_eq (h : Conforms L) (s cmp : Str) : ∀ fuel it n r,
    findLastNLoop L s cmp fuel it n r = Ystring.findLastNLoop s cmp fuel it n r
  | 0, _, _, _ => rfl
  | fuel + 1, it, n, r => by
    unfold findLastNLoop Ystring.findLastNLoop
    dsimp only
    rw [searchLast_eq h, findLastNLoop_eq h s cmp fuel]

theorem replaceFwdLoop_eq (h : Conforms L) (f t : Str) : ∀ n it r, replaceFwdLoop L f t n it r = Ystring.replaceFwdLoop f t n it r
  | 0, _, _ => rfl
  | n + 1, it, r => by
    unfold replaceFwdLoop Ystring.replaceFwdLoop
    dsimp only
    rw [search_eq h, replaceFwdLoop_eq h f t n]

theorem replace_eq (h : Conforms L) (s f t : Str) (n : Int) : replace L s f t n = Ystring.replace s f t n := by
  unfold replace Ystring.replace findLastN
  rw [replaceFwdLoop_eq h, findLastNLoop_eq h]

theorem findFirst_eq (h : Conforms L) (s cmp : Str) (o : Nat) : findFirst L s cmp o = Ystring.findFirst s cmp o := by
  unfold findFirst Ystring.findFirst
  simp only [search_eq h]

theorem findFirstEscapableChar_eq (h : Conforms L) (s : Str) (o : Nat) :
    findFirstEscapableChar L s o = Ystring.findFirstEscapableChar s o := by
  unfold findFirstEscapableChar Ystring.findFirstEscapableChar
  rw [findIf_eq h]

theorem findFirstEscapedChar_eq (h : Conforms L) (s : Str) (o : Nat) :
    findFirstEscapedChar L s o = Ystring.findFirstEscapedChar s o := by
  unfold findFirstEscapedChar Ystring.findFirstEscapedChar
  rw [findIf_eq h]
  rfl

theorem u32Contains_eq (h : Conforms L) (l : List Char32) (c : Char32) : u32Contains L l c = Ystring.u32Contains l c := by
  unfold u32Contains Ystring.u32Contains
  rw [findIf_eq h]

theorem u32CaseInsensitiveContains_eq (h : Conforms L) (l : List Char32) (c : Char32) :
    u32CaseInsensitiveContains L l c = Ystring.u32CaseInsensitiveContains l c := by
  unfold u32CaseInsensitiveContains Ystring.u32CaseInsensitiveContains
  rw [findIf_eq h]
  simp only [caseInsensitiveEqual_eq h]

theorem setContains_eq (h : Conforms L) (s : CodepointSet) (c : Char32) : setContains L s c = s.contains c := by
  unfold setContains CodepointSet.contains
  rw [anyOf_eq h]

theorem setCaseInsensitiveContains_eq (h : Conforms L) (s : CodepointSet) (c : Char32) :
    setCaseInsensitiveContains L s c = s.caseInsensitiveContains c := by
  unfold setCaseInsensitiveContains CodepointSet.caseInsensitiveContains
  rw [anyOf_eq h]
  simp only [caseInsensitiveEqual_eq h, caseInsensitiveLess_eq h]

end Lib
end Ystring
