import Verif.Spec.Sorting
import Verif.Props.CaseInsensitive
import Verif.Props.Codec
/-
C125: `case_insensitive::less` as the comparison function of algorithms and containers.
-/
namespace Ystring
open Spec

/-- the case folded code points of a valid string -/
def foldKey (s : Str) : List Nat := match toUtf32 s with | .ok cs => fold cs | .error _ => []

theorem foldKey_eq {s : Str} {cs : List Char32} (h : Decodes s cs) : foldKey s = fold cs := by
  unfold foldKey; rw [((C09_to_utf32 s).1 cs).mpr h]

theorem less_key {s t : Str} (hs : Valid s) (ht : Valid t) : CI.less s t = .ok (decide (foldKey s < foldKey t)) := by
  obtain ⟨cs, hs⟩ := hs
  obtain ⟨ds, ht⟩ := ht
  obtain ⟨_, _, _, _, _, _, _, h⟩ := CI.C44_compare hs ht
  rw [h, foldKey_eq hs, foldKey_eq ht]

theorem equal_key {s t : Str} (hs : Valid s) (ht : Valid t) : CI.equal s t = .ok (decide (foldKey s = foldKey t)) := by
  obtain ⟨cs, hs⟩ := hs
  obtain ⟨ds, ht⟩ := ht
  rw [CI.C43_equal hs ht, foldKey_eq hs, foldKey_eq ht]

theorem less_true {s t : Str} (hs : Valid s) (ht : Valid t) : CI.less s t = .ok true ↔ foldKey s < foldKey t := by
  rw [less_key hs ht]; simp

theorem less_false {s t : Str} (hs : Valid s) (ht : Valid t) : CI.less s t = .ok false ↔ foldKey t ≤ foldKey s := by
  rw [less_key hs ht]; simp

theorem equal_true {s t : Str} (hs : Valid s) (ht : Valid t) : CI.equal s t = .ok true ↔ foldKey s = foldKey t := by
  rw [equal_key hs ht]; simp

theorem both_false {s t : Str} (hs : Valid s) (ht : Valid t) :
    (CI.less s t = .ok false ∧ CI.less t s = .ok false) ↔ CI.equal s t = .ok true := by
  rw [less_false hs ht, less_false ht hs, equal_true hs ht]
  exact ⟨fun h => List.le_antisymm h.2 h.1, fun h => ⟨by rw [h]; exact List.le_refl _, by rw [h]; exact List.le_refl _⟩⟩

/-- C125: in a sorted list, the strings less than `t` come first (`lower_bound`), and a string equal to `t` up to case is in the
list exactly if the next one is equal to it (`binary_search`). -/
theorem C125_search (xs : List Str) (hx : ∀ x ∈ xs, Valid x) (hs : SortedBy CI.less xs) (t : Str) (ht : Valid t) :
    ∃ ys zs, xs = ys ++ zs ∧ (∀ y ∈ ys, CI.less y t = .ok true) ∧ (∀ z ∈ zs, CI.less z t = .ok false) ∧
      ((∃ x ∈ xs, CI.equal x t = .ok true) ↔ ∃ z zs', zs = z :: zs' ∧ CI.equal z t = .ok true) := by
  induction xs with
  | nil => exact ⟨[], [], rfl, by simp, by simp, by simp⟩
  | cons x xs ih =>
    have hvx := hx x List.mem_cons_self
    have hxs : ∀ y ∈ xs, Valid y := fun y hy => hx y (List.mem_cons_of_mem _ hy)
    obtain ⟨h1, h2⟩ := List.pairwise_cons.mp hs
    by_cases h : foldKey x < foldKey t
    · obtain ⟨ys, zs, e, a, b, c⟩ := ih hxs h2
      refine ⟨x :: ys, zs, by rw [e]; rfl, fun y hy => ?_, b, ?_⟩
      · rcases List.mem_cons.mp hy with rfl | hy
        · exact (less_true hvx ht).mpr h
        · exact a y hy
      · rw [← c]
        refine ⟨fun ⟨y, hy, e⟩ => ?_, fun ⟨y, hy, e⟩ => ⟨y, List.mem_cons_of_mem _ hy, e⟩⟩
        rcases List.mem_cons.mp hy with rfl | hy
        · rw [equal_true hvx ht] at e
          rw [e] at h
          exact absurd h (List.lt_irrefl _)
        · exact ⟨y, hy, e⟩
    · have h' : foldKey t ≤ foldKey x := List.not_lt.mp h
      have all : ∀ z ∈ x :: xs, foldKey t ≤ foldKey z := fun z hz => by
        rcases List.mem_cons.mp hz with rfl | hz
        · exact h'
        · exact List.le_trans h' ((less_false (hxs z hz) hvx).mp (h1 z hz))
      refine ⟨[], x :: xs, rfl, by simp, fun z hz => (less_false (hx z hz) ht).mpr (all z hz), ?_⟩
      refine ⟨fun ⟨y, hy, e⟩ => ⟨x, xs, rfl, (equal_true hvx ht).mpr ?_⟩, ?_⟩
      · rcases List.mem_cons.mp hy with rfl | hy
        · exact (equal_true hvx ht).mp e
        · have := (less_false (hxs y hy) hvx).mp (h1 y hy)
          rw [(equal_true (hxs y hy) ht).mp e] at this
          exact List.le_antisymm this h'
      · rintro ⟨z, zs', e, h3⟩
        cases e
        exact ⟨x, List.mem_cons_self, h3⟩

/-- C125: where the list is divided is determined. -/
theorem C125_search_unique (ys zs ys' zs' : List Str) (t : Str) (e : ys ++ zs = ys' ++ zs')
    (h1 : ∀ y ∈ ys, CI.less y t = .ok true) (h2 : ∀ z ∈ zs, CI.less z t = .ok false)
    (h3 : ∀ y ∈ ys', CI.less y t = .ok true) (h4 : ∀ z ∈ zs', CI.less z t = .ok false) : ys = ys' ∧ zs = zs' := by
  induction ys generalizing ys' with
  | nil =>
    cases ys' with
    | nil => exact ⟨rfl, e⟩
    | cons y ys' =>
      have := h2 y (by rw [← List.nil_append zs, e]; simp)
      rw [h3 y List.mem_cons_self] at this
      cases this
  | cons y ys ih =>
    cases ys' with
    | nil =>
      have := h4 y (by rw [← List.nil_append zs', ← e]; simp)
      rw [h1 y List.mem_cons_self] at this
      cases this
    | cons y' ys' =>
      rw [List.cons_append, List.cons_append, List.cons.injEq] at e
      obtain ⟨rfl, e⟩ := e
      obtain ⟨rfl, rfl⟩ := ih ys' e (fun x hx => h1 x (List.mem_cons_of_mem _ hx)) fun x hx => h3 x (List.mem_cons_of_mem _ hx)
      exact ⟨rfl, rfl⟩

/-- C125: in a sorted list, strings that are equal up to case are next to each other. -/
theorem C125_adjacent (a b c : List Str) (x y : Str) (hx : ∀ z ∈ a ++ x :: (b ++ y :: c), Valid z)
    (hs : SortedBy CI.less (a ++ x :: (b ++ y :: c))) (h : CI.equal x y = .ok true) : ∀ z ∈ b, CI.equal x z = .ok true := by
  intro z hz
  have vx := hx x (by simp)
  have vy := hx y (by simp)
  have vz := hx z (by simp [hz])
  unfold SortedBy at hs
  rw [List.pairwise_append, List.pairwise_cons, List.pairwise_append] at hs
  have h1 := (less_false vz vx).mp (hs.2.1.1 z (by simp [hz]))
  have h2 := (less_false vy vz).mp (hs.2.1.2.2.2 z hz y (by simp))
  rw [← (equal_true vx vy).mp h] at h2
  exact (equal_true vx vz).mpr (List.le_antisymm h1 h2)

/-- C125: sorting is determined up to case: however the strings are ordered before and whatever algorithm sorts them, the results
are equal up to case, string by string. -/
theorem C125_sort_unique (xs ys : List Str) (hx : ∀ x ∈ xs, Valid x) (hp : xs.Perm ys) (h1 : SortedBy CI.less xs)
    (h2 : SortedBy CI.less ys) :
    xs.length = ys.length ∧ ∀ i, ∀ hi : i < xs.length, ∀ hj : i < ys.length, CI.equal xs[i] ys[i] = .ok true := by
  have hy : ∀ y ∈ ys, Valid y := fun y hy => hx y (hp.mem_iff.mpr hy)
  have key : ∀ zs : List Str, (∀ z ∈ zs, Valid z) → SortedBy CI.less zs → (zs.map foldKey).Pairwise (· ≤ ·) := by
    intro zs hz hs
    rw [List.pairwise_map]
    exact List.Pairwise.imp_of_mem (fun ha hb h => (less_false (hz _ hb) (hz _ ha)).mp h) hs
  have e : xs.map foldKey = ys.map foldKey :=
    List.Perm.eq_of_pairwise (fun a b _ _ h h' => List.le_antisymm h h') (key xs hx h1) (key ys hy h2) (hp.map _)
  refine ⟨hp.length_eq, fun i hi hj => ?_⟩
  refine (equal_true (hx _ (List.getElem_mem hi)) (hy _ (List.getElem_mem hj))).mpr ?_
  have : (xs.map foldKey)[i]? = (ys.map foldKey)[i]? := by rw [e]
  rw [List.getElem?_map, List.getElem?_map, List.getElem?_eq_getElem hi, List.getElem?_eq_getElem hj] at this
  exact Option.some.inj this

/-- C125: a `std::set` with `case_insensitive::less` as comparison function finds a string exactly if one that is equal up to case has
been inserted, has no two elements that are equal up to case, and has only elements that have been inserted. -/
theorem C125_set (ins es : List Str) (hv : ∀ s ∈ ins, Valid s) (h : SetHistory CI.less ins es) :
    (∀ t, Valid t → (Finds CI.less es t ↔ ∃ s ∈ ins, CI.equal s t = .ok true)) ∧
    es.Pairwise (fun a b => CI.less a b = .ok true) ∧ es.Pairwise (fun a b => CI.equal a b = .ok false) ∧
    ∀ e ∈ es, e ∈ ins := by
  have main : (∀ e ∈ es, e ∈ ins) ∧ (∀ s ∈ ins, ∃ e ∈ es, foldKey e = foldKey s) ∧
      es.Pairwise (fun a b => CI.less a b = .ok true) := by
    induction h with
    | empty => exact ⟨by simp, by simp, .nil⟩
    | @there ins es t e _ he h1 h2 ih =>
      obtain ⟨a, b, c⟩ := ih fun s hs => hv s (List.mem_cons_of_mem _ hs)
      refine ⟨fun x hx => List.mem_cons_of_mem _ (a x hx), fun s hs => ?_, c⟩
      rcases List.mem_cons.mp hs with rfl | hs
      · have ve := hv e (List.mem_cons_of_mem _ (a e he))
        have vs := hv s List.mem_cons_self
        exact ⟨e, he, (equal_true ve vs).mp ((both_false ve vs).mp ⟨h1, h2⟩)⟩
      · exact b s hs
    | @new ins as bs t _ h1 h2 ih =>
      obtain ⟨a, b, c⟩ := ih fun s hs => hv s (List.mem_cons_of_mem _ hs)
      refine ⟨fun x hx => ?_, fun s hs => ?_, ?_⟩
      · rcases List.mem_append.mp hx with hx | hx
        · exact List.mem_cons_of_mem _ (a x (by simp [hx]))
        · rcases List.mem_cons.mp hx with rfl | hx
          · exact List.mem_cons_self
          · exact List.mem_cons_of_mem _ (a x (by simp [hx]))
      · rcases List.mem_cons.mp hs with rfl | hs
        · exact ⟨s, by simp, rfl⟩
        · obtain ⟨e, he, h⟩ := b s hs
          refine ⟨e, ?_, h⟩
          rcases List.mem_append.mp he with he | he <;> simp [he]
      · rw [List.pairwise_append] at c
        rw [List.pairwise_append, List.pairwise_cons]
        refine ⟨c.1, ⟨h2, c.2.1⟩, fun x hx y hy => ?_⟩
        rcases List.mem_cons.mp hy with rfl | hy
        · exact h1 x hx
        · exact c.2.2 x hx y hy
  obtain ⟨a, b, c⟩ := main
  have ve : ∀ e ∈ es, Valid e := fun e he => hv e (a e he)
  refine ⟨fun t ht => ⟨?_, ?_⟩, c, ?_, a⟩
  · rintro ⟨e, he, h1, h2⟩
    exact ⟨e, a e he, (both_false (ve e he) ht).mp ⟨h1, h2⟩⟩
  · rintro ⟨s, hs, h⟩
    obtain ⟨e, he, h'⟩ := b s hs
    have := (both_false (ve e he) ht).mpr ((equal_true (ve e he) ht).mpr (h'.trans ((equal_true (hv s hs) ht).mp h)))
    exact ⟨e, he, this⟩
  · refine List.Pairwise.imp_of_mem (fun ha hb h => ?_) c
    rw [less_true (ve _ ha) (ve _ hb)] at h
    rw [equal_key (ve _ ha) (ve _ hb)]
    congr 1
    exact decide_eq_false fun e => List.lt_irrefl _ (e ▸ h)

/-- C125: every history of insertions of valid strings is possible, i.e. there is always a place for a new element. -/
theorem C125_set_exists (ins : List Str) (hv : ∀ s ∈ ins, Valid s) : ∃ es, SetHistory CI.less ins es := by
  induction ins with
  | nil => exact ⟨[], .empty⟩
  | cons t ins ih =>
    have hv' : ∀ s ∈ ins, Valid s := fun s hs => hv s (List.mem_cons_of_mem _ hs)
    have vt := hv t List.mem_cons_self
    obtain ⟨es, h⟩ := ih hv'
    obtain ⟨_, hp, _, hi⟩ := C125_set ins es hv' h
    have ve : ∀ e ∈ es, Valid e := fun e he => hv' e (hi e he)
    have hs : SortedBy CI.less es := List.Pairwise.imp_of_mem (fun ha hb h =>
      (less_false (ve _ hb) (ve _ ha)).mpr (List.le_of_lt ((less_true (ve _ ha) (ve _ hb)).mp h))) hp
    obtain ⟨ys, zs, rfl, h1, h2, h3⟩ := C125_search es ve hs t vt
    by_cases hf : ∃ x ∈ ys ++ zs, CI.equal x t = .ok true
    · obtain ⟨x, hx, e⟩ := hf
      have := (both_false (ve x hx) vt).mpr e
      exact ⟨_, .there h hx this.1 this.2⟩
    · refine ⟨_, .new h h1 fun z hz => ?_⟩
      have vz := ve z (by simp [hz])
      have ge := (less_false vz vt).mp (h2 z hz)
      refine (less_true vt vz).mpr (List.not_le.mp fun le => hf ⟨z, by simp [hz], ?_⟩)
      exact (equal_true vz vt).mpr (List.le_antisymm le ge)

/-! Cases that meet the hypotheses: "Ab", "aB", "b" is sorted; "aB" is found. -/
example : SortedBy CI.less [[0x41, 0x62], [0x61, 0x42], [0x62]] := by
  unfold SortedBy
  simp only [List.pairwise_cons, List.mem_cons, List.not_mem_nil, or_false, forall_eq_or_imp, forall_eq]
  refine ⟨⟨by decide +kernel, by decide +kernel⟩, by decide +kernel, by simp, .nil⟩
example : SetHistory CI.less [[0x61, 0x42], [0x41, 0x62], [0x62]] [[0x41, 0x62], [0x62]] :=
  .there (.new (a := []) (b := [[0x62]]) (.new (a := []) (b := []) .empty (by simp) (by simp)) (by simp) (by simp; decide +kernel))
    List.mem_cons_self (by decide +kernel) (by decide +kernel)
example : CI.equal [0x61, 0x42] [0x41, 0x62] = .ok true ∧ CI.less [0x41, 0x62] [0x62] = .ok true := by decide +kernel

end Ystring
