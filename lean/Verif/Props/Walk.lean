import Verif.Props.Find
import Verif.Props.FindWhere
import Verif.Props.CaseInsensitiveFind
import Verif.Props.CaseInsensitiveReplace
import Verif.Props.Concat
/-
Property theorems C117: calling a search function again and again, each time from behind (before) what was found last, finds everything there is, in order.
-/
namespace Ystring
open Spec

/-- The loop of a user: search from `offset`; if something is found, remember it and search again from the offset `next` gives, at most `n` times
(`.diverge` if that is not enough). -/
def walk {α : Type} (find : Nat → Res α) (found : α → Bool) (next : α → Nat) : Nat → Nat → Res (List α)
  | 0, _ => .error .diverge
  | n + 1, offset => do
    let r ← find offset
    if found r then
      let rs ← walk find found next n (next r)
      .ok (r :: rs)
    else .ok []

/-- something was found -/
def Found (r : Subrange) : Bool := r.length ≠ 0

theorem walk_hit {α : Type} {find : Nat → Res α} {found : α → Bool} {next : α → Nat} {n o : Nat} {r : α} {rs : List α} (h : find o = .ok r)
    (hf : found r = true) (h2 : walk find found next n (next r) = .ok rs) : walk find found next (n + 1) o = .ok (r :: rs) := by
  simp [walk, h, hf, h2, bind, Except.bind]

theorem walk_miss {α : Type} {find : Nat → Res α} {found : α → Bool} {next : α → Nat} {n o : Nat} {r : α} (h : find o = .ok r)
    (hf : found r = false) : walk find found next (n + 1) o = .ok [] := by
  simp [walk, h, hf, bind, Except.bind]

theorem occurs_lt {s x : Str} (hx : x ≠ []) {i : Nat} (h : OccursAt s x i) : i + x.length ≤ s.length ∧ 0 < x.length := by
  obtain ⟨a, b, rfl, rfl⟩ := h
  have := List.length_pos_iff.mpr hx
  simp only [List.length_append]
  omega

theorem walk_first (s x : Str) (hx : x ≠ []) (n : Nat) : ∀ o, o ≤ s.length → s.length - o < n →
    ∃ l, walk (fun o => findFirst s x o) Found (·.offset + 1) n o = .ok l ∧
      (∀ r, r ∈ l ↔ r.length = x.length ∧ o ≤ r.offset ∧ OccursAt s x r.offset) ∧ l.Pairwise (·.offset < ·.offset) := by
  induction n with
  | zero => intro o _ h; omega
  | succ n ih =>
    intro o ho hn
    rcases C17_find_first s x hx o ho with ⟨i, h1, h2, h3, h4⟩ | ⟨h1, h2⟩
    · have hi := occurs_lt hx h3
      obtain ⟨l, e, hm, hp⟩ := ih (i + 1) (by omega) (by omega)
      refine ⟨_, walk_hit h1 (by simp [Found]; omega) e, ?_, ?_⟩
      · intro r
        rw [List.mem_cons, hm r]
        constructor
        · rintro (rfl | ⟨a, b, c⟩)
          · exact ⟨rfl, h2, h3⟩
          · exact ⟨a, by omega, c⟩
        · rintro ⟨a, b, c⟩
          have := h4 _ b c
          by_cases e : r.offset = i
          · left; cases r; simp_all
          · right; exact ⟨a, by omega, c⟩
      · refine List.pairwise_cons.mpr ⟨?_, hp⟩
        intro r hr
        have := ((hm r).mp hr).2.1
        show i < r.offset
        omega
    · refine ⟨[], walk_miss h1 (by simp [Found]), ?_, .nil⟩
      intro r
      constructor
      · intro h; cases h
      · rintro ⟨a, b, c⟩; exact absurd c (h2 _ b)

/-- C117: calling `find_first` again and again from one byte behind the beginning of the last match ends and finds every occurrence, once, from left to right. -/
theorem C117_find_first (s x : Str) (hx : x ≠ []) : ∃ l, walk (fun o => findFirst s x o) Found (·.offset + 1) (s.length + 1) 0 = .ok l ∧
    (∀ r, r ∈ l ↔ r.length = x.length ∧ OccursAt s x r.offset) ∧ l.Pairwise (·.offset < ·.offset) := by
  obtain ⟨l, h1, h2, h3⟩ := walk_first s x hx (s.length + 1) 0 (by omega) (by omega)
  exact ⟨l, h1, fun r => by rw [h2]; simp, h3⟩

theorem walk_last (s x : Str) (hx : x ≠ []) (n : Nat) : ∀ o, min o s.length < n →
    ∃ l, walk (fun o => .ok (findLast s x o)) Found (fun r => r.offset + r.length - 1) n o = .ok l ∧
      (∀ r, r ∈ l ↔ r.length = x.length ∧ r.offset + r.length ≤ o ∧ OccursAt s x r.offset) ∧ l.Pairwise (·.offset > ·.offset) := by
  induction n with
  | zero => intro o h; omega
  | succ n ih =>
    intro o hn
    rcases C18_find_last s x hx o with ⟨i, h1, h2, h3, h4⟩ | ⟨h1, h2⟩
    · have hi := occurs_lt hx h3
      obtain ⟨l, e, hm, hp⟩ := ih (i + x.length - 1) (by omega)
      refine ⟨_, walk_hit (congrArg Except.ok h1) (by simp [Found]; omega) e, ?_, ?_⟩
      · intro r
        rw [List.mem_cons, hm r]
        constructor
        · rintro (rfl | ⟨a, b, c⟩)
          · exact ⟨rfl, h2, h3⟩
          · exact ⟨a, by omega, c⟩
        · rintro ⟨a, b, c⟩
          have := h4 r.offset (by omega) c
          by_cases e : r.offset = i
          · left; cases r; simp_all
          · right; exact ⟨a, by omega, c⟩
      · refine List.pairwise_cons.mpr ⟨?_, hp⟩
        intro r hr
        have := (hm r).mp hr
        show i > r.offset
        omega
    · refine ⟨[], walk_miss (congrArg Except.ok h1) (by simp [Found]), ?_, .nil⟩
      intro r
      constructor
      · intro h; cases h
      · rintro ⟨a, b, c⟩; exact absurd c (h2 _ (by omega))

/-- C117: the same with `find_last`, each time from one byte before the end of the last match: every occurrence, once, from right to left. So the results of
`C117_find_first` in reverse order. -/
theorem C117_find_last (s x : Str) (hx : x ≠ []) (hl : s.length < npos) :
    ∃ l, walk (fun o => .ok (findLast s x o)) Found (fun r => r.offset + r.length - 1) (s.length + 1) npos = .ok l ∧
      (∀ r, r ∈ l ↔ r.length = x.length ∧ OccursAt s x r.offset) ∧ l.Pairwise (·.offset > ·.offset) ∧
      walk (fun o => findFirst s x o) Found (·.offset + 1) (s.length + 1) 0 = .ok l.reverse := by
  obtain ⟨l, h1, h2, h3⟩ := walk_last s x hx (s.length + 1) npos (by omega)
  have h2' : ∀ r, r ∈ l ↔ r.length = x.length ∧ OccursAt s x r.offset := by
    intro r
    rw [h2]
    constructor
    · exact fun h => ⟨h.1, h.2.2⟩
    · intro h
      have := occurs_lt hx h.2
      exact ⟨h.1, by omega, h.2⟩
  refine ⟨l, h1, h2', h3, ?_⟩
  obtain ⟨k, k1, k2, k3⟩ := C117_find_first s x hx
  rw [k1]
  congr 1
  refine List.Perm.eq_of_pairwise (le := fun a b : Subrange => a.offset < b.offset) ?_ k3 (List.pairwise_reverse.mpr h3) ?_
  · intro a b _ _ h h'; omega
  · refine (List.perm_ext_iff_of_nodup ?_ ?_).mpr ?_
    · exact k3.imp fun h e => by rw [e] at h; omega
    · exact (List.pairwise_reverse.mpr h3).imp fun h e => by rw [e] at h; omega
    · intro r; rw [List.mem_reverse, k2, h2']

/-! ### Searching by a predicate -/

/-- The ranges and values of the code points for which `p` holds; `us` are the code points (bytes and value) of a string from offset `o` on. -/
def spots (p : Char32 → Bool) : Nat → List (Str × Char32) → List (Subrange × Char32)
  | _, [] => []
  | o, (u, c) :: us => (if p c then [(⟨o, u.length⟩, c)] else []) ++ spots p (o + u.length) us

theorem spots_append (p : Char32 → Bool) (us vs : List (Str × Char32)) : ∀ o, spots p o (us ++ vs) = spots p o us ++ spots p (o + (bytesOf us).length) vs := by
  induction us with
  | nil => intro o; simp [spots]
  | cons x us ih => intro o; obtain ⟨u, c⟩ := x; simp [spots, ih, Nat.add_assoc]

theorem where_skip (a u b : Str) (c : Char32) (p : Char32 → Bool) (hu : IsSeq u c) (hp : p c = false) (hb : Valid b) :
    findFirstWhere (a ++ u ++ b) p a.length = findFirstWhere (a ++ u ++ b) p (a ++ u).length := by
  obtain ⟨h1, h2, -⟩ := C20_find_first_where (a ++ u) b p
  obtain ⟨k1, k2, -⟩ := C20_find_first_where a (u ++ b) p
  rw [← List.append_assoc] at k1 k2
  rcases C20_cases b p with ⟨w, v, t, cs, d, e, hw, hn, hv, hd⟩ | ⟨cs, hw, hn⟩ | ⟨w, t, cs, e, hw, hn, ht, hns⟩
  · rw [h1 w v t cs d e hw hn hv hd, k1 (u ++ w) v t (c :: cs) d (by rw [e]; simp) (.cons hu hw) (by simpa [hp] using hn) hv hd]
    simp [Nat.add_assoc]
  · rw [h2 cs hw hn, k2 (c :: cs) (.cons hu hw) (by simpa [hp] using hn)]
  · exfalso
    obtain ⟨us, hu, e2, -⟩ := hw.units
    rw [e, ← e2] at hb
    exact ht ((valid_bad_tail hu hns).mp hb)

theorem walk_where (p : Char32 → Bool) (us : List Unit8) (hu : Units us) : ∀ (a : Str) (n : Nat), us.length < n →
    walk (fun o => findFirstWhere (a ++ bytesOf us) p o) (fun r => Found r.1) (fun r => r.1.offset + r.1.length) n a.length = .ok (spots p a.length us) := by
  induction us with
  | nil =>
    intro a n hn
    obtain ⟨n, rfl⟩ : ∃ k, n = k + 1 := ⟨n - 1, by simp at hn; omega⟩
    have := (C20_find_first_where a [] p).2.1 [] .nil (by simp)
    exact walk_miss this rfl
  | cons x us ih =>
    obtain ⟨u, c⟩ := x
    rw [Units_cons] at hu
    intro a n hn
    obtain ⟨n, rfl⟩ : ∃ k, n = k + 1 := ⟨n - 1, by simp at hn; omega⟩
    have ih' := ih hu.2 (a ++ u)
    rw [bytesOf_cons]
    by_cases hp : p c = true
    · have h := (C20_find_first_where a (u ++ bytesOf us) p).1 [] u (bytesOf us) [] c (by simp) .nil (by simp) hu.1 hp
      have h2 := ih' n (by simp at hn; omega)
      rw [List.append_assoc, List.length_append] at h2
      have hpos := List.length_pos_iff.mpr hu.1.ne_nil
      simp only [spots, hp, if_true]
      refine walk_hit h (by simp [Found]; exact hu.1.ne_nil) ?_
      simpa using h2
    · have hp : p c = false := by simpa using hp
      have h2 := ih' (n + 1) (by simp at hn; omega)
      rw [List.length_append] at h2
      simp only [spots, hp, Bool.false_eq_true, if_false, List.nil_append]
      rw [← h2, List.append_assoc]
      have hw := where_skip a u (bytesOf us) c p hu.1 hp ⟨_, Units.decodes hu.2⟩
      rw [List.append_assoc, List.length_append] at hw
      simp only [walk, hw]

/-- C117: calling `find_first_where` again and again from the end of what was found last visits exactly the code points for which the predicate holds, in
order, and returns their ranges and values. -/
theorem C117_find_first_where (s : Str) (us : List (Str × Char32)) (hs : us.flatMap (·.1) = s) (hu : ∀ u ∈ us, IsSeq u.1 u.2) (p : Char32 → Bool) :
    walk (fun o => findFirstWhere s p o) (fun r => Found r.1) (fun r => r.1.offset + r.1.length) (s.length + 1) 0 = .ok (spots p 0 us) := by
  have h := walk_where p us hu [] (s.length + 1) (by have := units_length_le hu; rw [show bytesOf us = s from hs] at this; omega)
  rw [show bytesOf us = s from hs] at h
  exact h

theorem last_hit (p : Char32 → Bool) (us : List Unit8) :
    (∃ vs x ws, us = vs ++ x :: ws ∧ p x.2 = true ∧ ∀ y ∈ ws, p y.2 = false) ∨ ∀ y ∈ us, p y.2 = false := by
  induction us with
  | nil => right; simp
  | cons z us ih =>
    rcases ih with ⟨vs, x, ws, e, h1, h2⟩ | h
    · exact .inl ⟨z :: vs, x, ws, by rw [e]; rfl, h1, h2⟩
    · by_cases hz : p z.2 = true
      · exact .inl ⟨[], z, us, rfl, hz, h⟩
      · right
        intro y hy
        rcases List.mem_cons.mp hy with e | hy
        · rw [e]; simpa using hz
        · exact h y hy

theorem mem_vals {us : List Unit8} {p : Char32 → Bool} (h : ∀ y ∈ us, p y.2 = false) : ∀ c ∈ valsOf us, p c = false := by
  intro c hc
  obtain ⟨y, hy, rfl⟩ := List.mem_map.mp hc
  exact h y hy

theorem spots_none {p : Char32 → Bool} {us : List Unit8} (h : ∀ y ∈ us, p y.2 = false) : ∀ o, spots p o us = [] := by
  induction us with
  | nil => intro o; rfl
  | cons x us ih =>
    intro o
    obtain ⟨u, c⟩ := x
    have hc : p c = false := h (u, c) List.mem_cons_self
    simp only [spots, hc, Bool.false_eq_true, if_false, List.nil_append]
    exact ih (fun y hy => h y (List.mem_cons_of_mem _ hy)) _

theorem walk_where_back (p : Char32 → Bool) (n : Nat) : ∀ (us : List Unit8) (b : Str) (o : Nat), Units us → us.length < n →
    min o (bytesOf us ++ b).length = (bytesOf us).length →
    walk (fun o => findLastWhere (bytesOf us ++ b) p o) (fun r => Found r.1) (fun r => r.1.offset) n o = .ok (spots p 0 us).reverse := by
  induction n with
  | zero => intro us b o _ h; omega
  | succ n ih =>
    intro us b o hu hn ho
    obtain ⟨h1, h2, -⟩ := C21_find_last_where (bytesOf us) b p o ho
    rcases last_hit p us with ⟨vs, ⟨u, c⟩, ws, e, hp, hw⟩ | h
    · subst e
      have hv : Units vs := fun y hy => hu y (by simp [hy])
      have hw' : Units ws := fun y hy => hu y (by simp [hy])
      have hx : IsSeq u c := hu (u, c) (by simp)
      have hr := h1 (bytesOf vs) u (bytesOf ws) (valsOf ws) c (by simp) hw'.decodes (mem_vals hw) hx hp
      have h3 := ih vs (u ++ (bytesOf ws ++ b)) (bytesOf vs).length hv (by simp at hn; omega) (by simp)
      have e3 : bytesOf vs ++ (u ++ (bytesOf ws ++ b)) = bytesOf (vs ++ (u, c) :: ws) ++ b := by simp
      rw [e3] at h3
      rw [spots_append]
      simp only [spots, show p c = true from hp, if_true, spots_none hw, List.append_nil, List.reverse_append, List.reverse_singleton, List.singleton_append, Nat.zero_add]
      exact walk_hit hr (by simp [Found]; exact hx.ne_nil) h3
    · rw [spots_none h]
      exact walk_miss (h2 _ hu.decodes (mem_vals h)) rfl

/-- C117: calling `find_last_where` again and again from the beginning of what was found last visits the same code points from right to left. -/
theorem C117_find_last_where (s : Str) (us : List (Str × Char32)) (hs : us.flatMap (·.1) = s) (hu : ∀ u ∈ us, IsSeq u.1 u.2) (p : Char32 → Bool)
    (hl : s.length < npos) :
    walk (fun o => findLastWhere s p o) (fun r => Found r.1) (fun r => r.1.offset) (s.length + 1) npos = .ok (spots p 0 us).reverse := by
  have h := walk_where_back p (s.length + 1) us [] npos hu (by have := units_length_le hu; rw [show bytesOf us = s from hs] at this; omega)
    (by rw [List.append_nil, show bytesOf us = s from hs]; omega)
  rw [List.append_nil, show bytesOf us = s from hs] at h
  exact h

/-! ### Ignoring case -/

theorem foldAt_shift {a : Str} (ha : Valid a) (b x : Str) (i m : Nat) : FoldAt (a ++ b) x (a.length + i) m ↔ FoldAt b x i m := by
  constructor
  · rintro ⟨q, m', t, e, e1, e2, hq, ht, hsf⟩
    obtain ⟨w, rfl⟩ : ∃ w, q = a ++ w := by
      have h : (a ++ b).take a.length = q.take a.length := by rw [e, List.append_assoc, List.take_append_of_le_length (by omega)]
      rw [List.take_left] at h
      refine ⟨q.drop a.length, ?_⟩
      conv => rhs; lhs; rw [h]
      rw [List.take_append_drop]
    simp only [List.append_assoc] at e
    exact ⟨w, m', t, by simpa using List.append_cancel_left e, by simpa using e1, e2, (valid_append_iff ha w).mp hq, ht, hsf⟩
  · rintro ⟨w, m', t, e, e1, e2, hq, ht, hsf⟩
    exact ⟨a ++ w, m', t, by rw [e]; simp, by simp [e1], e2, (valid_append_iff ha w).mpr hq, ht, hsf⟩

theorem CI.walk_first (s x : Str) (hx : Valid x) (h0 : x ≠ []) (n : Nat) : ∀ a b, s = a ++ b → Valid a → Valid b → b.length < n →
    ∃ l, walk (fun o => CI.findFirst s x o) Found (fun r => r.offset + r.length) n a.length = .ok l ∧
      (∀ r ∈ l, a.length ≤ r.offset ∧ FoldAt s x r.offset r.length) ∧
      (∀ i m, FoldAt s x i m → a.length ≤ i → ∃ r ∈ l, r.offset ≤ i ∧ i < r.offset + r.length) ∧
      l.Pairwise (fun r q => r.offset + r.length ≤ q.offset) := by
  induction n with
  | zero => intro a b _ _ _ h; omega
  | succ n ih =>
    rintro a b rfl ha hb hn
    rcases C45_find_first a b x hb hx h0 with ⟨h1, h2⟩ | ⟨i, k, h1, h2, h3, h4⟩
    · refine ⟨[], walk_miss h2 rfl, by simp, ?_, .nil⟩
      intro i m hf hi
      obtain ⟨d, rfl⟩ : ∃ d, i = a.length + d := ⟨i - a.length, by omega⟩
      exact absurd ((foldAt_shift ha b x d m).mp hf) (h1 d m)
    · obtain ⟨u, v, t, e, e1, e2, hu, ht, hsf⟩ := h1
      have hv : Valid v := by obtain ⟨cs, ds, hc, -⟩ := hsf; exact ⟨cs, hc⟩
      have hbl : b.length = u.length + v.length + t.length := by rw [e]; simp only [List.length_append]
      have hvu : Valid (a ++ u ++ v) := by
        rw [List.append_assoc, valid_append_iff ha, valid_append_iff hu]; exact hv
      obtain ⟨l, g1, g2, g3, g4⟩ := ih (a ++ u ++ v) t (by rw [e]; simp) hvu ht (by omega)
      have hlen : (a ++ u ++ v).length = a.length + i + k := by simp only [List.length_append, e1, e2]
      have hfa : FoldAt (a ++ b) x (a.length + i) k := (foldAt_shift ha b x i k).mpr ⟨u, v, t, e, e1, e2, hu, ht, hsf⟩
      rw [hlen] at g1 g2 g3
      refine ⟨_, walk_hit h4 (by simp [Found]; omega) g1, ?_, ?_, List.pairwise_cons.mpr ⟨?_, g4⟩⟩
      · intro r hr
        rcases List.mem_cons.mp hr with rfl | hr
        · exact ⟨by simp, hfa⟩
        · have := g2 r hr
          exact ⟨by omega, this.2⟩
      · intro j m hf hj
        by_cases hlt : a.length + i + k ≤ j
        · obtain ⟨r, hr, h5⟩ := g3 j m hf hlt
          exact ⟨r, List.mem_cons_of_mem _ hr, h5⟩
        · refine ⟨_, List.mem_cons_self, ?_, ?_⟩
          · obtain ⟨d, rfl⟩ : ∃ d, j = a.length + d := ⟨j - a.length, by omega⟩
            have := h3 d m ((foldAt_shift ha b x d m).mp hf)
            show a.length + i ≤ a.length + d
            omega
          · show j < a.length + i + k
            omega
      · intro r hr
        exact (g2 r hr).1

/-- C117: `case_insensitive::find_first`, called again and again from the end of the last match, finds matches from left to right that do not overlap, and
every occurrence begins inside one of them. -/
theorem C117_find_first_ignoring_case (s x : Str) (hs : Valid s) (hx : Valid x) (h0 : x ≠ []) :
    ∃ l, walk (fun o => CI.findFirst s x o) Found (fun r => r.offset + r.length) (s.length + 1) 0 = .ok l ∧
      (∀ r ∈ l, FoldAt s x r.offset r.length) ∧
      (∀ i m, FoldAt s x i m → ∃ r ∈ l, r.offset ≤ i ∧ i < r.offset + r.length) ∧
      l.Pairwise (fun r q => r.offset + r.length ≤ q.offset) := by
  obtain ⟨l, h1, h2, h3, h4⟩ := CI.walk_first s x hx h0 (s.length + 1) [] s rfl ⟨[], .nil⟩ hs (by omega)
  exact ⟨l, h1, fun r hr => (h2 r hr).2, fun i m hf => h3 i m hf (Nat.zero_le _), h4⟩

theorem foldAt_extend {a b x : Str} (hb : Valid b) {i m : Nat} (h : FoldAt a x i m) : FoldAt (a ++ b) x i m := by
  obtain ⟨q, v, t, e, e1, e2, hq, ht, hsf⟩ := h
  exact ⟨q, v, t ++ b, by rw [e]; simp, e1, e2, hq, (valid_append_iff ht b).mpr hb, hsf⟩

theorem foldAt_restrict {a b x : Str} (hb : Valid b) {i m : Nat} (h : FoldAt (a ++ b) x i m) (hl : i + m ≤ a.length) : FoldAt a x i m := by
  obtain ⟨q, v, t, e, e1, e2, hq, ht, hsf⟩ := h
  have hlen : (q ++ v).length ≤ a.length := by rw [List.length_append]; omega
  obtain ⟨w, rfl⟩ : ∃ w, a = q ++ v ++ w := by
    have h : (a ++ b).take (q ++ v).length = (q ++ v ++ t).take (q ++ v).length := by rw [e]
    rw [List.take_left, List.take_append_of_le_length hlen] at h
    refine ⟨a.drop (q ++ v).length, ?_⟩
    conv => rhs; lhs; rw [← h]
    rw [List.take_append_drop]
  have e' : w ++ b = t := by
    rw [List.append_assoc] at e
    exact List.append_cancel_left e
  have hw : Valid w := by
    rw [← e'] at ht
    obtain ⟨us, hu, e2⟩ := ht.units
    obtain ⟨vs, hv, e3⟩ := hb.units
    obtain ⟨ws, h1, -, h2⟩ := valid_prefix hu hv (by rw [e2, e3] : bytesOf us = w ++ bytesOf vs)
    rw [h2]; exact h1.valid
  exact ⟨q, v, w, rfl, e1, e2, hq, hw, hsf⟩

/-- C117: the same from right to left with `case_insensitive::find_last`, each time from the beginning of the last match: every occurrence ends inside one
of the matches. -/
theorem C117_find_last_ignoring_case (s x : Str) (hs : Valid s) (hx : Valid x) (h0 : x ≠ []) (hl : s.length < npos) :
    ∃ l, walk (fun o => CI.findLast s x o) Found (fun r => r.offset) (s.length + 1) npos = .ok l ∧
      (∀ r ∈ l, FoldAt s x r.offset r.length) ∧
      (∀ i m, FoldAt s x i m → ∃ r ∈ l, r.offset < i + m ∧ i + m ≤ r.offset + r.length) ∧
      l.Pairwise (fun r q => q.offset + q.length ≤ r.offset) := by
  suffices h : ∀ n a b o, s = a ++ b → Valid a → Valid b → min o s.length = a.length → a.length < n →
      ∃ l, walk (fun o => CI.findLast s x o) Found (fun r => r.offset) n o = .ok l ∧
        (∀ r ∈ l, r.offset + r.length ≤ a.length ∧ FoldAt s x r.offset r.length) ∧
        (∀ i m, FoldAt s x i m → i + m ≤ a.length → ∃ r ∈ l, r.offset < i + m ∧ i + m ≤ r.offset + r.length) ∧
        l.Pairwise (fun r q => q.offset + q.length ≤ r.offset) by
    obtain ⟨l, h1, h2, h3, h4⟩ := h (s.length + 1) s [] npos (by simp) hs ⟨[], .nil⟩ (by omega) (by omega)
    refine ⟨l, h1, fun r hr => (h2 r hr).2, fun i m hf => h3 i m hf ?_, h4⟩
    obtain ⟨q, v, t, e, e1, e2, -⟩ := hf
    rw [e]; simp only [List.length_append]; omega
  intro n
  induction n with
  | zero => intro a b o _ _ _ _ h; omega
  | succ n ih =>
    rintro a b o rfl ha hb ho hn
    rcases CI.C45_find_last a b x ha hx h0 o ho with ⟨h1, h2⟩ | ⟨i, k, h1, h2, h3, h4⟩
    · refine ⟨[], walk_miss h2 rfl, by simp, ?_, .nil⟩
      intro i m hf hi
      exact absurd (foldAt_restrict hb hf hi) (h1 i m)
    · have hfa := foldAt_extend hb h1
      have hik : i + k ≤ a.length := by
        obtain ⟨q, v, t, e, e1, e2, -⟩ := h1
        rw [e]; simp only [List.length_append]; omega
      obtain ⟨u, v, t, e, e1, e2, hu, ht, hsf⟩ := h1
      have hv : Valid v := by obtain ⟨cs, ds, hc, -⟩ := hsf; exact ⟨cs, hc⟩
      obtain ⟨l, g1, g2, g3, g4⟩ := ih u (v ++ t ++ b) i (by rw [e]; simp) hu
        (by rw [List.append_assoc, valid_append_iff hv, valid_append_iff ht]; exact hb)
        (by rw [e1]; simp only [List.length_append]; omega) (by omega)
      rw [e1] at g2 g3
      refine ⟨_, walk_hit h4 (by simp [Found]; omega) g1, ?_, ?_, List.pairwise_cons.mpr ⟨?_, g4⟩⟩
      · intro r hr
        rcases List.mem_cons.mp hr with rfl | hr
        · exact ⟨hik, hfa⟩
        · have := g2 r hr
          exact ⟨by omega, this.2⟩
      · intro j m hf hj
        by_cases hlt : j + m ≤ i
        · obtain ⟨r, hr, h5⟩ := g3 j m hf hlt
          exact ⟨r, List.mem_cons_of_mem _ hr, h5⟩
        · refine ⟨_, List.mem_cons_self, ?_, ?_⟩
          · show i < j + m
            omega
          · exact (h3 j m (foldAt_restrict hb hf hj)).2
      · intro r hr
        exact (g2 r hr).1

/-! ### Laws of the searches -/

/-- C117: a later start gives a later match (and from a start at or before the match the match is the same); a string is found at most where it is found
in a part; there is exactly one occurrence iff the first one is the last one. -/
theorem C117_laws (s x : Str) (hx : x ≠ []) :
    (∀ o o' r r', o ≤ o' → findFirst s x o = .ok r → findFirst s x o' = .ok r' → r'.length ≠ 0 →
      r.length ≠ 0 ∧ r.offset ≤ r'.offset ∧ (o' ≤ r.offset → r = r')) ∧
    (∀ o o', o ≤ o' → (findLast s x o).length ≠ 0 → (findLast s x o').length ≠ 0 ∧ (findLast s x o).offset ≤ (findLast s x o').offset) ∧
    (∀ t r q, findFirst s t 0 = .ok r → findFirst t x 0 = .ok q → r.length ≠ 0 → q.length ≠ 0 →
      ∃ v, findFirst s x 0 = .ok v ∧ v.length = x.length ∧ v.offset ≤ r.offset + q.offset) ∧
    (s.length < npos → ∀ r, findFirst s x 0 = .ok r → r.length ≠ 0 →
      (findLast s x npos = r ↔ ∀ i j, OccursAt s x i → OccursAt s x j → i = j)) := by
  have first : ∀ s x : Str, x ≠ [] → ∀ o r, findFirst s x o = .ok r → r.length ≠ 0 →
      r.length = x.length ∧ o ≤ r.offset ∧ OccursAt s x r.offset ∧ ∀ j, o ≤ j → OccursAt s x j → r.offset ≤ j := by
    intro s x hx o r hr h0
    have ho : o ≤ s.length := by
      rcases Nat.lt_or_ge s.length o with h | h
      · rw [(C17_find_first_corner s o).2 x h] at hr; cases hr
      · exact h
    rcases C17_find_first s x hx o ho with ⟨i, h1, h2, h3, h4⟩ | ⟨h1, -⟩
    · rw [h1] at hr; injection hr with hr; subst hr; exact ⟨rfl, h2, h3, h4⟩
    · rw [h1] at hr; injection hr with hr; subst hr; exact absurd rfl h0
  have last : ∀ o, (findLast s x o).length ≠ 0 → (findLast s x o).length = x.length ∧ (findLast s x o).offset + x.length ≤ o ∧
      OccursAt s x (findLast s x o).offset ∧ ∀ j, j + x.length ≤ o → OccursAt s x j → j ≤ (findLast s x o).offset := by
    intro o h0
    rcases C18_find_last s x hx o with ⟨i, h1, h2, h3, h4⟩ | ⟨h1, -⟩
    · rw [h1]; exact ⟨rfl, h2, h3, h4⟩
    · rw [h1] at h0; exact absurd rfl h0
  refine ⟨?_, ?_, ?_, ?_⟩
  · intro o o' r r' ho hr hr' h0
    obtain ⟨a1, a2, a3, a4⟩ := first s x hx o' r' hr' h0
    have hol := occurs_lt hx a3
    rcases C17_find_first s x hx o (by omega) with ⟨i, h1, h2, h3, h4⟩ | ⟨h1, h2⟩
    · rw [h1] at hr; injection hr with hr; subst hr
      have h5 := h4 _ (by omega) a3
      refine ⟨by show x.length ≠ 0; omega, h5, fun h => ?_⟩
      have h6 := a4 i h h3
      have h7 : r'.offset = i := Nat.le_antisymm h6 h5
      cases r'; simp_all
    · exact absurd a3 (h2 _ (by omega))
  · intro o o' ho h0
    obtain ⟨a1, a2, a3, a4⟩ := last o h0
    have hol := occurs_lt hx a3
    have h0' : (findLast s x o').length ≠ 0 := by
      rcases C18_find_last s x hx o' with ⟨i, h1, -⟩ | ⟨-, h2⟩
      · rw [h1]; show x.length ≠ 0; omega
      · exact absurd a3 (h2 _ (by omega))
    exact ⟨h0', (last o' h0').2.2.2 _ (by omega) a3⟩
  · intro t r q hr hq hr0 hq0
    obtain ⟨-, -, a3, -⟩ := first t x hx 0 q hq hq0
    have ht : t ≠ [] := by
      rintro rfl
      have := occurs_lt hx a3
      rw [List.length_nil] at this
      omega
    obtain ⟨-, -, b3, -⟩ := first s t ht 0 r hr hr0
    have hoc : OccursAt s x (r.offset + q.offset) := by
      obtain ⟨a, b, rfl, ea⟩ := a3
      obtain ⟨c, d, rfl, ec⟩ := b3
      exact ⟨c ++ a, b ++ d, by simp, by simp [ea, ec]⟩
    rcases C17_find_first s x hx 0 (by omega) with ⟨i, h1, h2, h3, h4⟩ | ⟨h1, h2⟩
    · exact ⟨_, h1, rfl, h4 _ (by omega) hoc⟩
    · exact absurd hoc (h2 _ (by omega))
  · intro hl r hr h0
    obtain ⟨a1, a2, a3, a4⟩ := first s x hx 0 r hr h0
    have hol := occurs_lt hx a3
    have h0' : (findLast s x npos).length ≠ 0 := by
      rcases C18_find_last s x hx npos with ⟨i, h1, -⟩ | ⟨-, h2⟩
      · rw [h1]; show x.length ≠ 0; omega
      · exact absurd a3 (h2 _ (by omega))
    obtain ⟨b1, b2, b3, b4⟩ := last npos h0'
    constructor
    · intro e i j hi hj
      have hi' := occurs_lt hx hi
      have hj' := occurs_lt hx hj
      have c1 := a4 i (by omega) hi
      have c2 := a4 j (by omega) hj
      have c3 := b4 i (by omega) hi
      have c4 := b4 j (by omega) hj
      rw [e] at c3 c4
      omega
    · intro h
      have e1 := h _ _ b3 a3
      have e2 := b1.trans a1.symm
      generalize findLast s x npos = q at e1 e2
      cases q; cases r
      simp_all

-- "aa" occurs three times in "aaaa"
example : walk (fun o => findFirst [0x61, 0x61, 0x61, 0x61] [0x61, 0x61] o) Found (·.offset + 1) 5 0 = .ok [⟨0, 2⟩, ⟨1, 2⟩, ⟨2, 2⟩] ∧
    walk (fun o => .ok (findLast [0x61, 0x61, 0x61, 0x61] [0x61, 0x61] o)) Found (fun r => r.offset + r.length - 1) 5 npos = .ok [⟨2, 2⟩, ⟨1, 2⟩, ⟨0, 2⟩] ∧
    walk (fun o => CI.findFirst [0x61, 0x41, 0x61, 0x61, 0x61] [0x41, 0x61] o) Found (fun r => r.offset + r.length) 6 0 = .ok [⟨0, 2⟩, ⟨2, 2⟩] ∧
    walk (fun o => findLastWhere [0x61, 0xC3, 0xA6, 0x62, 0xC3, 0xB8] (fun c => 0x80 < c) o) (fun r => Found r.1) (fun r => r.1.offset) 7 npos =
      .ok [(⟨4, 2⟩, 0xF8), (⟨1, 2⟩, 0xE6)] := by decide +kernel

end Ystring
