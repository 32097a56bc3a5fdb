import Verif.Model.Generate
import Verif.Proofs.CharClass
import Verif.Proofs.GenerateCase
/-
Proofs about make_char_class_file.py: the ranges tile the code points, and every range gives its code points the class of the
database.
-/
namespace Ystring.Gen

/-- the class that a range gives to `c` -/
def classAt (r : ClassRange) (c : Nat) : Nat :=
  match r.2.2 with
  | .one k => k
  | .alternating k => if (c + r.2.1) % 2 = 0 then k else 3 - k
  | .two k last => if c = r.2.1 then last else k

/-- a class number -/
def IsClass (k : Nat) : Prop := 1 ≤ k ∧ k ≤ 30

def GoodClass : RangeClass → Prop
  | .one k => IsClass k
  | .alternating k => 1 ≤ k ∧ k ≤ 2
  | .two k last => IsClass k ∧ IsClass last

/-- a non-empty range that gives its code points the classes `f` -/
structure Good (f : Nat → Nat) (r : ClassRange) : Prop where
  le : r.1 ≤ r.2.1
  cls : GoodClass r.2.2
  at' : ∀ c, r.1 ≤ c → c ≤ r.2.1 → classAt r c = f c

/-- the ranges, in reverse order, cover [0, b) -/
def RTiles (f : Nat → Nat) : List ClassRange → Nat → Prop
  | [], b => b = 0
  | r :: rs, b => r.2.1 + 1 = b ∧ Good f r ∧ RTiles f rs r.1

/-- the ranges cover [a, b) -/
def Tiles (f : Nat → Nat) : Nat → List ClassRange → Nat → Prop
  | a, [], b => a = b
  | a, r :: rs, b => r.1 = a ∧ Good f r ∧ Tiles f (r.2.1 + 1) rs b

theorem tiles_of_rtiles {f : Nat → Nat} : ∀ (rs : List ClassRange) (ts : List ClassRange) (m b : Nat),
    RTiles f rs m → Tiles f m ts b → Tiles f 0 (rs.reverse ++ ts) b
  | [], ts, m, b, h, t => by rw [show m = 0 from h] at t; simpa using t
  | r :: rs, ts, m, b, ⟨h1, h2, h3⟩, t => by
    rw [List.reverse_cons, List.append_assoc, List.singleton_append]
    exact tiles_of_rtiles rs (r :: ts) r.1 b h3 ⟨rfl, h2, by rw [h1]; exact t⟩

/-! ### get_class_ranges -/

/-- the class of `c` as given by the lines of the database from some place on; `prev` is the class of the line before -/
def classFrom (known : List Nat) : Option Nat → List (Nat × Nat) → Nat → Nat
  | _, [], _ => 30
  | prev, (a, k) :: lines, c =>
    if c < a then (if a ∈ known ∧ prev = some k then k else 30)
    else if c = a then k
    else classFrom known (some k) lines c

/-- strictly ascending from `n` on, with classes -/
def Ascends : Nat → List (Nat × Nat) → Prop
  | _, [] => True
  | n, (a, k) :: lines => n ≤ a ∧ IsClass k ∧ Ascends (a + 1) lines

def RangeInv (f : Nat → Nat) (s : RangeState) : Prop :=
  match s.rangeClass with
  | none => s.ranges = [] ∧ s.next = 0
  | some k => RTiles f s.ranges.reverse s.rangeStart ∧ s.rangeStart < s.next ∧ IsClass k ∧
      ∀ c, s.rangeStart ≤ c → c < s.next → f c = k

theorem flush_tiles {f : Nat → Nat} {s : RangeState} (h : RangeInv f s) : RTiles f s.flush.reverse s.next := by
  unfold RangeInv at h
  unfold RangeState.flush
  split at h
  · rename_i e
    rw [e]; simp only
    rw [h.1, h.2]; exact rfl
  · rename_i k e
    rw [e]; simp only
    rw [List.reverse_append, List.reverse_singleton, List.singleton_append]
    obtain ⟨h1, h2, h3, h4⟩ := h
    refine ⟨by simp only; omega, ⟨by simp only; omega, h3, ?_⟩, h1⟩
    intro c hc1 hc2
    exact (h4 c hc1 (by simp only at hc2; omega)).symm

theorem rangeStep_inv {f : Nat → Nat} {known : List Nat} {s : RangeState} {a k : Nat} (h : RangeInv f s) (ha : s.next ≤ a)
    (hk : IsClass k) (hfa : f a = k)
    (hf : ∀ c, s.next ≤ c → c < a → f c = if a ∈ known ∧ s.rangeClass = some k then k else 30) :
    RangeInv f (rangeStep known s (a, k)) ∧ (rangeStep known s (a, k)).rangeClass = some k ∧
      (rangeStep known s (a, k)).next = a + 1 := by
  unfold rangeStep
  by_cases hc : (a = s.next ∨ a ∈ known) ∧ s.rangeClass = some k
  · rw [if_pos hc]
    refine ⟨?_, hc.2, rfl⟩
    unfold RangeInv at h ⊢
    simp only [hc.2] at h ⊢
    obtain ⟨h1, h2, h3, h4⟩ := h
    refine ⟨h1, by omega, h3, ?_⟩
    intro c c1 c2
    by_cases c3 : c < s.next
    · exact h4 c c1 c3
    · by_cases c4 : c = a
      · rw [c4]; exact hfa
      · rw [hf c (by omega) (by omega), if_pos]
        exact ⟨hc.1.resolve_left (by omega), hc.2⟩
  · rw [if_neg hc]
    refine ⟨?_, rfl, rfl⟩
    have ht := flush_tiles h
    show RTiles f _ a ∧ a < a + 1 ∧ IsClass k ∧ _
    refine ⟨?_, by omega, hk, fun c c1 c2 => by rw [show c = a by simp only at c1 c2; omega]; exact hfa⟩
    simp only
    split
    · rename_i hne
      rw [List.reverse_append, List.reverse_singleton, List.singleton_append]
      refine ⟨by simp only; omega, ⟨by simp only; omega, ⟨by omega, by omega⟩, ?_⟩, ht⟩
      intro c c1 c2
      simp only at c1 c2
      rw [hf c c1 (by omega), if_neg (fun x => hc ⟨.inr x.1, x.2⟩)]
      rfl
    · rename_i he
      rw [show a = s.next by omega]; exact ht

theorem foldl_rangeStep {f : Nat → Nat} {known : List Nat} : ∀ (lines : List (Nat × Nat)) (s : RangeState), RangeInv f s →
    Ascends s.next lines → (∀ c, s.next ≤ c → f c = classFrom known s.rangeClass lines c) →
    RangeInv f (lines.foldl (rangeStep known) s) ∧ ∀ c, (lines.foldl (rangeStep known) s).next ≤ c → f c = 30
  | [], s, h, _, hf => ⟨h, fun c hc => hf c hc⟩
  | (a, k) :: lines, s, h, ⟨h1, h2, h3⟩, hf => by
    have hs := rangeStep_inv (f := f) (known := known) (a := a) (k := k) h h1 h2
      (by rw [hf a h1, classFrom, if_neg (by omega), if_pos rfl])
      (fun c c1 c2 => by rw [hf c c1, classFrom, if_pos c2])
    rw [List.foldl_cons]
    refine foldl_rangeStep lines _ hs.1 (by rw [hs.2.2]; exact h3) ?_
    intro c hc
    rw [hs.2.2] at hc
    rw [hs.2.1, hf c (by omega), classFrom, if_neg (by omega), if_neg (by omega)]

theorem rangeStep_next (known : List Nat) (s : RangeState) (l : Nat × Nat) : (rangeStep known s l).next = l.1 + 1 := by
  unfold rangeStep; split <;> rfl

theorem foldl_next {known : List Nat} {n : Nat} : ∀ (lines : List (Nat × Nat)) (s : RangeState), s.next ≤ n →
    (∀ l ∈ lines, l.1 < n) → (lines.foldl (rangeStep known) s).next ≤ n
  | [], _, h, _ => h
  | l :: lines, s, _, hl => by
    rw [List.foldl_cons]
    refine foldl_next lines _ ?_ (fun l' h' => hl l' (.tail _ h'))
    rw [rangeStep_next]; exact hl l (.head _)

theorem classRanges_tiles {known : List Nat} {lines : List (Nat × Nat)} {n : Nat} (h : Ascends 0 lines)
    (hn : ∀ l ∈ lines, l.1 < n) :
    ∃ b, b ≤ n ∧ Tiles (classFrom known none lines) 0 (classRanges known lines) b ∧
      ∀ c, b ≤ c → classFrom known none lines c = 30 := by
  have := foldl_rangeStep (f := classFrom known none lines) (known := known) lines ⟨[], none, 0, 0⟩ ⟨rfl, rfl⟩ h (fun c _ => rfl)
  have ht := flush_tiles this.1
  refine ⟨_, foldl_next lines _ (Nat.zero_le _) hn, ?_, this.2⟩
  simpa [classRanges] using tiles_of_rtiles _ [] _ _ ht rfl

/-! ### The optimisations -/

theorem foldl_tiles {f : Nat → Nat} {step : List ClassRange → ClassRange → List ClassRange}
    (hstep : ∀ acc r, Good f r → RTiles f acc r.1 → RTiles f (step acc r) (r.2.1 + 1)) :
    ∀ (rs : List ClassRange) (acc : List ClassRange) (a b : Nat), RTiles f acc a → Tiles f a rs b →
      RTiles f (rs.foldl step acc) b
  | [], _, _, _, h, t => by rw [← show _ = _ from t]; exact h
  | r :: rs, acc, a, b, h, ⟨h1, h2, h3⟩ => by
    rw [List.foldl_cons]
    exact foldl_tiles hstep rs _ _ b (hstep acc r h2 (by rw [h1]; exact h)) h3

theorem rtiles_cons {f : Nat → Nat} {acc : List ClassRange} {r : ClassRange} (h : Good f r) (t : RTiles f acc r.1) :
    RTiles f (r :: acc) (r.2.1 + 1) := ⟨rfl, h, t⟩

/-- a single letter is joined to an alternating range -/
theorem join_alternating {f : Nat → Nat} {q r : ClassRange} {k : Nat} (hq : Good f q) (hr : Good f r) (hqr : q.2.1 + 1 = r.1)
    (hk : 1 ≤ k ∧ k ≤ 2) (h1 : r.1 = r.2.1) (h2 : r.2.2 = .one k)
    (h3 : q.2.2 = .alternating (3 - k) ∨ (q.2.2 = .one (3 - k) ∧ q.1 = q.2.1)) :
    Good f (q.1, r.2.1, .alternating k) := by
  have := hq.le
  refine ⟨by simp only; omega, hk, ?_⟩
  intro c c1 c2
  simp only at c1 c2
  by_cases hc : c = r.2.1
  · have := hr.at' c (by omega) (by omega)
    unfold classAt at this
    rw [h2] at this; simp only at this
    rw [← this]
    unfold classAt; simp only
    rw [if_pos (by omega)]
  · have hcl := hq.at' c c1 (by omega)
    rw [← hcl]
    unfold classAt
    simp only
    rcases h3 with h3 | ⟨h3, h4⟩
    · rw [h3]; simp only
      have : r.2.1 = q.2.1 + 1 := by omega
      rw [this]
      by_cases hp : (c + q.2.1) % 2 = 0
      · rw [if_neg (by omega), if_pos hp]
      · rw [if_pos (by omega), if_neg hp]; omega
    · rw [h3]; simp only
      rw [if_neg (by omega)]

theorem alternatingStep_tiles {f : Nat → Nat} (acc : List ClassRange) (r : ClassRange) (hr : Good f r) (ha : RTiles f acc r.1) :
    RTiles f (alternatingStep acc r) (r.2.1 + 1) := by
  cases acc with
  | nil => exact rtiles_cons hr ha
  | cons q qs =>
    obtain ⟨h1, h2, h3⟩ := ha
    simp only [alternatingStep]
    split
    · rename_i hc
      split
      · rename_i hd
        exact rtiles_cons (join_alternating h2 hr hd.1 (by omega) hc.1 hc.2 hd.2) h3
      · exact rtiles_cons hr ⟨h1, h2, h3⟩
    · split
      · rename_i hc
        split
        · rename_i hd
          exact rtiles_cons (join_alternating h2 hr hd.1 (by omega) hc.1 hc.2 hd.2) h3
        · exact rtiles_cons hr ⟨h1, h2, h3⟩
      · exact rtiles_cons hr ⟨h1, h2, h3⟩

theorem unassignedStep_tiles {f : Nat → Nat} (acc : List ClassRange) (r : ClassRange) (hr : Good f r) (ha : RTiles f acc r.1) :
    RTiles f (unassignedStep acc r) (r.2.1 + 1) := by
  cases acc with
  | nil => exact rtiles_cons hr ha
  | cons q qs =>
    have hall := rtiles_cons hr ha
    obtain ⟨h1, h2, h3⟩ := ha
    simp only [unassignedStep]
    split
    · rename_i k last e1 e2
      split
      · rename_i he
        refine rtiles_cons (r := (q.1, r.2.1, .two k last)) ⟨?_, ?_, ?_⟩ h3
        · have := h2.le; simp only; omega
        · have a := h2.cls; rw [e1] at a
          have b := hr.cls; rw [e2] at b
          exact ⟨a, b⟩
        · intro c c1 c2
          simp only at c1 c2
          unfold classAt; simp only
          split
          · have := hr.at' c (by omega) (by omega)
            rw [← this]; unfold classAt; rw [e2]
          · have := h2.at' c c1 (by omega)
            rw [← this]; unfold classAt; rw [e1]
      · exact hall
    · exact hall

theorem optimized_tiles {f : Nat → Nat} {rs : List ClassRange} {b : Nat} (h : Tiles f 0 rs b) :
    Tiles f 0 (optimizeUnassigned (optimizeAlternating rs)) b := by
  have h1 := foldl_tiles alternatingStep_tiles rs [] 0 b rfl h
  have h2 : Tiles f 0 (optimizeAlternating rs) b := by simpa [optimizeAlternating] using tiles_of_rtiles _ [] _ _ h1 rfl
  have h3 := foldl_tiles unassignedStep_tiles _ [] 0 b rfl h2
  simpa [optimizeUnassigned] using tiles_of_rtiles _ [] _ _ h3 rfl

/-! ### The encoding -/

/-- the low 11 bits -/
def classBits : RangeClass → Nat
  | .one k => k
  | .two k last => k * 32 + last
  | .alternating k => 1024 + k

theorem encodeValue_eq (e : Nat) (c : RangeClass) (h : GoodClass c) : encodeValue e c = e * 2048 + classBits c := by
  unfold encodeValue classBits
  cases c with
  | one k => simp only [Nat.shiftLeft_eq]
  | alternating k =>
    simp only [Nat.shiftLeft_eq]
    have : k = 1 ∨ k = 2 := by unfold GoodClass at h; omega
    rcases this with rfl | rfl <;> rfl
  | two k last =>
    simp only [Nat.shiftLeft_eq]
    obtain ⟨h1, h2⟩ := h
    unfold IsClass at h1 h2
    have := Nat.two_pow_add_eq_or_of_lt (i := 5) (b := last) (by omega) k
    rw [show k * 2 ^ 5 = 2 ^ 5 * k from Nat.mul_comm _ _, ← this]

theorem classBits_lt (c : RangeClass) (h : GoodClass c) : 1 ≤ classBits c ∧ classBits c < 2048 := by
  cases c with
  | one k => simp only [GoodClass, IsClass, classBits] at *; omega
  | alternating k => simp only [GoodClass, classBits] at *; omega
  | two k last => simp only [GoodClass, IsClass, classBits] at *; omega

theorem encode_wf (e : Nat) (c : RangeClass) (h : GoodClass c) (he : e < 2 ^ 21) : wfEntry (encodeValue e c) = true := by
  rw [encodeValue_eq e c h]
  simp only [wfEntry, Bool.and_eq_true, decide_eq_true_eq, Bool.or_eq_true]
  cases c with
  | one k => simp only [GoodClass, IsClass, classBits] at *; omega
  | alternating k => simp only [GoodClass, classBits] at *; omega
  | two k last => simp only [GoodClass, IsClass, classBits] at *; omega

theorem encode_decN (r : ClassRange) (c : Nat) (h : GoodClass r.2.2) :
    decN c (encodeValue r.2.1 r.2.2) = classAt r c - 1 := by
  rw [encodeValue_eq _ _ h]
  obtain ⟨a, e, cls⟩ := r
  simp only at h ⊢
  generalize hv : e * 2048 + classBits cls = v
  unfold decN classAt
  cases cls with
  | one k =>
    simp only [GoodClass, IsClass, classBits] at h hv ⊢
    rw [if_pos (by omega)]; omega
  | alternating k =>
    simp only [GoodClass, classBits] at h hv ⊢
    rw [if_neg (by omega), if_pos (by omega)]
    have h1 : v / 2048 = e := by omega
    have h2 : v % 32 = k := by omega
    rw [h1, h2]
    split <;> omega
  | two k last =>
    simp only [GoodClass, IsClass, classBits] at h hv ⊢
    rw [if_neg (by omega), if_neg (by omega)]
    have h1 : v / 2048 = e := by omega
    have h2 : v % 32 = last := by omega
    have h3 : v / 32 % 64 = k := by omega
    rw [h1, h2, h3]
    split <;> omega

theorem key_le (e c : Nat) (cls : RangeClass) (h : GoodClass cls) : c * 2048 ≤ encodeValue e cls ↔ c ≤ e := by
  have := classBits_lt cls h
  rw [encodeValue_eq e cls h]
  omega

theorem tiles_le {f : Nat → Nat} : ∀ (rs : List ClassRange) (a b : Nat), Tiles f a rs b → a ≤ b
  | [], a, b, h => Nat.le_of_eq h
  | r :: rs, a, b, ⟨h1, h2, h3⟩ => by
    have := tiles_le rs _ b h3
    have := h2.le
    omega

theorem tiles_mem {f : Nat → Nat} : ∀ (rs : List ClassRange) (a b : Nat), Tiles f a rs b → ∀ r ∈ rs, Good f r ∧ a ≤ r.1 ∧ r.2.1 < b
  | [], _, _, _, r, hr => by cases hr
  | q :: rs, a, b, ⟨h1, h2, h3⟩, r, hr => by
    rcases List.mem_cons.mp hr with rfl | hr
    · have := tiles_le rs _ b h3
      exact ⟨h2, by omega, by omega⟩
    · have := h2.le
      have := tiles_mem rs _ b h3 r hr
      exact ⟨this.1, by omega, this.2.2⟩

theorem tiles_sorted {f : Nat → Nat} : ∀ (rs : List ClassRange) (a b : Nat), Tiles f a rs b →
    (rs.map (fun r => encodeValue r.2.1 r.2.2)).Pairwise (fun x y => id x ≤ id y)
  | [], _, _, _ => .nil
  | q :: rs, a, b, ⟨h1, h2, h3⟩ => by
    rw [List.map_cons, List.pairwise_cons]
    refine ⟨?_, tiles_sorted rs _ b h3⟩
    intro y hy
    obtain ⟨r, hr, rfl⟩ := List.mem_map.mp hy
    obtain ⟨hg, hl, _⟩ := tiles_mem rs _ b h3 r hr
    have := hg.le
    have e1 := encodeValue_eq q.2.1 _ h2.cls
    have e2 := encodeValue_eq r.2.1 _ hg.cls
    have := classBits_lt _ h2.cls
    have := classBits_lt _ hg.cls
    simp only [id]
    omega

theorem tiles_classLin {f : Nat → Nat} : ∀ (rs : List ClassRange) (a b : Nat), Tiles f a rs b → (∀ c, b ≤ c → f c = 30) →
    ∀ c, a ≤ c → classLin (rs.map (fun r => encodeValue r.2.1 r.2.2)) c (c * 2048) = f c - 1
  | [], a, b, h, hf, c, hc => by
    have : a = b := h
    rw [hf c (by omega)]; rfl
  | q :: rs, a, b, ⟨h1, h2, h3⟩, hf, c, hc => by
    rw [List.map_cons]
    by_cases hq : c ≤ q.2.1
    · unfold classLin
      rw [List.find?_cons_of_pos (by rw [decide_eq_true_eq, key_le _ _ _ h2.cls]; exact hq)]
      simp only
      rw [encode_decN _ _ h2.cls, h2.at' c (by omega) hq]
    · have := tiles_classLin rs _ b h3 hf c (by omega)
      unfold classLin at this ⊢
      rw [List.find?_cons_of_neg (by rw [decide_eq_true_eq, key_le _ _ _ h2.cls]; exact hq)]
      exact this

/-! ### The ASCII table -/

theorem ascii_getD : ∀ (n : Nat) (lines : List (Nat × Nat)) (a : Nat), Ascends a lines → n + a = 128 →
    (∀ i, a ≤ i → i < 128 → ∃ k, (i, k) ∈ lines) → ∀ c, a ≤ c → c < 128 → ∀ k, (c, k) ∈ lines →
    (asciiTable lines).getD (c - a) 0 = k - 1
  | 0, _, _, _, h, _, c, h1, h2, _, _ => by omega
  | n + 1, [], a, _, _, hall, _, _, _, _, _ => by
    obtain ⟨k, hk⟩ := hall a (Nat.le_refl _) (by omega); cases hk
  | n + 1, (b, k') :: lines, a, ⟨h1, h2, h3⟩, hn, hall, c, hc1, hc2, k, hk => by
    have hge : ∀ (lines : List (Nat × Nat)) (a : Nat), Ascends a lines → ∀ x ∈ lines, a ≤ x.1 := by
      intro lines
      induction lines with
      | nil => intro _ _ x hx; cases hx
      | cons y ys ih =>
        intro a h x hx
        rcases List.mem_cons.mp hx with rfl | hx
        · exact h.1
        · have h1 := h.1
          have := ih _ h.2.2 x hx
          omega
    have hb : b = a := by
      obtain ⟨k1, hk1⟩ := hall a (Nat.le_refl _) (by omega)
      rcases List.mem_cons.mp hk1 with e | e
      · cases e; rfl
      · have := hge _ _ h3 _ e; simp only at this; omega
    subst hb
    have hrest : ∀ i k, b + 1 ≤ i → (i, k) ∈ (b, k') :: lines → (i, k) ∈ lines := by
      intro i k hi hm
      rcases List.mem_cons.mp hm with e | e
      · cases e; omega
      · exact e
    have ht : asciiTable ((b, k') :: lines) = (k' - 1) :: asciiTable lines := by
      unfold asciiTable
      rw [List.takeWhile_cons_of_pos (by simp only [decide_eq_true_eq]; omega)]; rfl
    rw [ht]
    by_cases hcb : c = b
    · subst hcb
      rcases List.mem_cons.mp hk with e | e
      · cases e; simp
      · have := hge _ _ h3 _ e; simp only at this; omega
    · have := ascii_getD n lines (b + 1) h3 (by omega)
        (fun i hi hi' => (hall i (by omega) hi').imp fun k hk => hrest i k hi hk) c (by omega) hc2 k (hrest c k (by omega) hk)
      rw [show c - b = (c - (b + 1)) + 1 by omega, List.getD_cons_succ]
      exact this

/-- the table has 128 entries -/
theorem asciiTable_length : ∀ (n : Nat) (lines : List (Nat × Nat)) (a : Nat), Ascends a lines → n + a = 128 →
    (∀ i, a ≤ i → i < 128 → ∃ k, (i, k) ∈ lines) → (asciiTable lines).length = n
  | 0, lines, a, h, hn, _ => by
    cases lines with
    | nil => rfl
    | cons l lines =>
      unfold asciiTable
      have := h.1
      rw [List.takeWhile_cons_of_neg (by simp only [decide_eq_true_eq]; omega)]; rfl
  | n + 1, [], a, _, _, hall => by
    obtain ⟨k, hk⟩ := hall a (Nat.le_refl _) (by omega); cases hk
  | n + 1, (b, k') :: lines, a, ⟨h1, h2, h3⟩, hn, hall => by
    have hge : ∀ (lines : List (Nat × Nat)) (a : Nat), Ascends a lines → ∀ x ∈ lines, a ≤ x.1 := by
      intro lines
      induction lines with
      | nil => intro _ _ x hx; cases hx
      | cons y ys ih =>
        intro a h x hx
        rcases List.mem_cons.mp hx with rfl | hx
        · exact h.1
        · have h1 := h.1
          have := ih _ h.2.2 x hx
          omega
    have hb : b = a := by
      obtain ⟨k1, hk1⟩ := hall a (Nat.le_refl _) (by omega)
      rcases List.mem_cons.mp hk1 with e | e
      · cases e; rfl
      · have := hge _ _ h3 _ e; simp only at this; omega
    subst hb
    have := asciiTable_length n lines (b + 1) h3 (by omega) (fun i hi hi' => by
      obtain ⟨k, hk⟩ := hall i (by omega) hi'
      rcases List.mem_cons.mp hk with e | e
      · cases e; omega
      · exact ⟨k, e⟩)
    unfold asciiTable at this ⊢
    rw [List.takeWhile_cons_of_pos (by simp only [decide_eq_true_eq]; omega), List.map_cons, List.length_cons, this]

/-! ### The class of a code point -/

theorem ascends_of_pairwise : ∀ (lines : List (Nat × Nat)) (a : Nat), lines.Pairwise (fun x y => x.1 < y.1) →
    (∀ l ∈ lines, a ≤ l.1 ∧ IsClass l.2) → Ascends a lines
  | [], _, _, _ => trivial
  | l :: lines, a, h, hk => by
    rw [List.pairwise_cons] at h
    refine ⟨(hk l (.head _)).1, (hk l (.head _)).2, ascends_of_pairwise lines _ h.2 ?_⟩
    intro l' hl'
    have h1 := h.1 l' hl'
    exact ⟨by omega, (hk l' (.tail _ hl')).2⟩

theorem ascends_ge : ∀ {lines : List (Nat × Nat)} {a : Nat}, Ascends a lines → ∀ x ∈ lines, a ≤ x.1 ∧ IsClass x.2
  | [], _, _, x, hx => by cases hx
  | y :: ys, a, h, x, hx => by
    rcases List.mem_cons.mp hx with rfl | hx
    · exact ⟨h.1, h.2.1⟩
    · have h1 := h.1
      have := ascends_ge h.2.2 x hx
      exact ⟨by omega, this.2⟩

theorem classFrom_mem {known : List Nat} : ∀ {lines : List (Nat × Nat)} {a : Nat} {prev : Option Nat}, Ascends a lines →
    ∀ {c k : Nat}, (c, k) ∈ lines → classFrom known prev lines c = k
  | (b, k') :: lines, a, prev, ⟨h1, h2, h3⟩, c, k, hm => by
    unfold classFrom
    rcases List.mem_cons.mp hm with e | e
    · cases e
      rw [if_neg (by omega), if_pos rfl]
    · have := (ascends_ge h3 _ e).1
      simp only at this
      rw [if_neg (by omega), if_neg (by omega)]
      exact classFrom_mem h3 e

/-- between two lines -/
theorem classFrom_gap {known : List Nat} : ∀ {l1 : List (Nat × Nat)} {a : Nat} {prev : Option Nat} {x y : Nat × Nat}
    {l2 : List (Nat × Nat)}, Ascends a (l1 ++ x :: y :: l2) →
    ∀ {c : Nat}, x.1 < c → c < y.1 → classFrom known prev (l1 ++ x :: y :: l2) c =
      if y.1 ∈ known ∧ x.2 = y.2 then y.2 else 30
  | [], a, prev, (x, kx), (y, ky), l2, ⟨h1, h2, h3, h4⟩, c, hx, hy => by
    simp only [List.nil_append, classFrom] at *
    rw [if_neg (by omega), if_neg (by omega), if_pos hy]
    simp only [Option.some.injEq]
  | (z, kz) :: l1, a, prev, x, y, l2, ⟨h1, h2, h3⟩, c, hx, hy => by
    have := (ascends_ge h3 x (by simp)).1
    simp only [List.cons_append, classFrom] at *
    rw [if_neg (by omega), if_neg (by omega)]
    exact classFrom_gap h3 hx hy

/-- neither a line nor between two lines -/
theorem classFrom_else {known : List Nat} : ∀ {lines : List (Nat × Nat)} {a : Nat} {prev : Option Nat}, Ascends a lines →
    ∀ {c : Nat}, (∀ k, (c, k) ∉ lines) →
    (prev ≠ none → ∀ x ∈ lines.head?, x.1 ≤ c) →
    (∀ l1 x y l2, lines = l1 ++ x :: y :: l2 → ¬ (x.1 < c ∧ c < y.1)) → classFrom known prev lines c = 30
  | [], _, _, _, _, _, _, _ => rfl
  | (b, k) :: lines, a, prev, ⟨h1, h2, h3⟩, c, hm, hp, hg => by
    unfold classFrom
    by_cases hc : c < b
    · rw [if_pos hc, if_neg]
      rintro ⟨_, e⟩
      have := hp (by rw [e]; simp) (b, k) (by simp)
      simp only at this; omega
    · rw [if_neg hc, if_neg (by rintro rfl; exact hm k (by simp))]
      have hne : c ≠ b := by rintro rfl; exact hm k (by simp)
      refine classFrom_else h3 (fun k' hk' => hm k' (.tail _ hk')) ?_ ?_
      · intro _ x hx
        cases lines with
        | nil => simp at hx
        | cons y ys =>
          simp at hx; subst hx
          have := hg [] (b, k) y ys rfl
          simp only at this
          omega
      · intro l1 x y l2 e
        exact hg ((b, k) :: l1) x y l2 (by rw [e]; rfl)

theorem classFrom_pos (known : List Nat) : ∀ (lines : List (Nat × Nat)) (prev : Option Nat) (a : Nat), Ascends a lines → ∀ c,
    1 ≤ classFrom known prev lines c
  | [], _, _, _, c => by unfold classFrom; omega
  | (b, k) :: lines, prev, a, ⟨_, h2, h3⟩, c => by
    have := h2.1
    have := classFrom_pos known lines (some k) _ h3 c
    unfold classFrom
    repeat' split
    all_goals omega

theorem classTables_eq (known : List Nat) (lines : List (Nat × Nat)) (ha : lines.Pairwise (fun a b => a.1 < b.1))
    (hk : ∀ l ∈ lines, l.1 < 2 ^ 21 ∧ 1 ≤ l.2 ∧ l.2 ≤ 30) (h128 : ∀ i < 128, ∃ k, (i, k) ∈ lines)
    (c : Char32) (hc : c.toNat < 2 ^ 21) :
    (charClassShiftIn (Gen.asciiTable lines) (Gen.classTableWith known lines) c).toNat + 1 =
      Gen.classFrom known none lines c.toNat := by
  have hasc : Gen.Ascends 0 lines := Gen.ascends_of_pairwise lines 0 ha (fun l hl => ⟨Nat.zero_le _, (hk l hl).2⟩)
  by_cases hlt : c.toNat < 128
  · obtain ⟨k, hm⟩ := h128 _ hlt
    have hg := Gen.ascii_getD 128 lines 0 hasc rfl (fun i _ hi => h128 i hi) c.toNat (Nat.zero_le _) hlt k hm
    rw [Gen.classFrom_mem hasc hm]
    unfold charClassShiftIn
    have hkk := hk _ hm
    simp only at hkk
    rw [Nat.sub_zero] at hg
    rw [if_pos ((lt128 c).mpr hlt), hg, UInt32.toNat_ofNat_of_lt' (by show _ < 4294967296; omega)]
    omega
  · obtain ⟨b, hb1, ht, hb⟩ := Gen.classRanges_tiles (known := known) hasc (fun l hl => (hk l hl).1)
    have ht := Gen.optimized_tiles ht
    have hlin := Gen.tiles_classLin _ _ _ ht hb c.toNat (Nat.zero_le _)
    have htab : (charClassShiftIn (Gen.asciiTable lines) (Gen.classTableWith known lines) c).toNat =
        Gen.classFrom known none lines c.toNat - 1 := by
      unfold Gen.classTableWith
      rw [charClassShiftIn_table _ _ (Gen.isSortedBy_of_pairwise (Gen.tiles_sorted _ _ _ ht)) ?_ c (by omega),
        Nat.mod_eq_of_lt (by omega)]
      · exact hlin
      · rw [List.all_eq_true]
        intro e he
        obtain ⟨r, hr, rfl⟩ := List.mem_map.mp he
        obtain ⟨hg, _, hlt⟩ := Gen.tiles_mem _ _ _ ht r hr
        exact Gen.encode_wf _ _ hg.cls (by omega)
    have hpos := Gen.classFrom_pos known lines none 0 hasc c.toNat
    omega

end Ystring.Gen
