import Verif.Proofs.GenerateClass
import Verif.Spec.CharClass
/-
make_char_class_file.py on UnicodeData16.0.0.txt, computed range by range.
-/
namespace Ystring.Gen
open Spec

/-- runs of lines: (first, last, category) -/
def runsOf (rows : List (Nat × Nat × Nat × Nat)) : List (Nat × Nat × Nat) :=
  rows.flatMap fun r => if r.2.2.2 = 0 then [(r.1, r.2.1, r.2.2.1 + 1)]
    else [(r.1, r.1, r.2.2.1 + 1), (r.2.1, r.2.1, r.2.2.1 + 1)]

/-- the lines of a run -/
def runLines (r : Nat × Nat × Nat) : List (Nat × Nat) := (List.range' r.1 (r.2.1 + 1 - r.1)).map (fun c => (c, r.2.2))

theorem UD_LINES_runs : UD_LINES = (runsOf UD_RANGES).flatMap runLines := by
  unfold UD_LINES runsOf
  rw [List.flatMap_assoc]
  congr 1
  funext r
  split
  · simp [runLines]
  · simp [runLines, Nat.add_sub_cancel_left]

/-- one pass of the loop over runs; `ranges` in reverse order -/
def runStep (known : List Nat) (s : RangeState) (r : Nat × Nat × Nat) : RangeState :=
  if (r.1 = s.next ∨ r.1 ∈ known) ∧ s.rangeClass = some r.2.2 then { s with next := r.2.1 + 1 }
  else
    let ranges := match s.rangeClass with
      | some k => (s.rangeStart, s.next - 1, .one k) :: s.ranges
      | none => s.ranges
    let ranges := if r.1 ≠ s.next then (s.next, r.1 - 1, .one 30) :: ranges else ranges
    ⟨ranges, some r.2.2, r.1, r.2.1 + 1⟩

def RangeState.rev (s : RangeState) : RangeState := ⟨s.ranges.reverse, s.rangeClass, s.rangeStart, s.next⟩

theorem runStep_single (known : List Nat) (s : RangeState) (a k : Nat) :
    (rangeStep known s (a, k)).rev = runStep known s.rev (a, a, k) := by
  unfold rangeStep runStep RangeState.rev RangeState.flush
  simp only
  split
  · rfl
  · cases s.rangeClass <;> simp only <;> split <;> simp

theorem runLines_step (known : List Nat) (a k : Nat) : ∀ (n : Nat) (s : RangeState),
    ((List.range' a (n + 1)).map (fun c => (c, k))).foldl (rangeStep known) s =
      { rangeStep known s (a, k) with next := a + n + 1 }
  | 0, s => by
    have h := rangeStep_next known s (a, k)
    show rangeStep known s (a, k) = _
    generalize rangeStep known s (a, k) = t at h
    cases t
    simp only at h
    rw [h]
  | n + 1, s => by
    rw [← List.range'_append_1 (s := a) (m := n + 1) (n := 1), List.map_append, List.foldl_append, runLines_step known a k n s]
    simp only [List.range'_one, List.map_cons, List.map_nil, List.foldl_cons, List.foldl_nil]
    have hc : (rangeStep known s (a, k)).rangeClass = some k := by
      unfold rangeStep; split
      · rename_i h; exact h.2
      · rfl
    rw [rangeStep, if_pos ⟨.inl (by simp only; omega), hc⟩]

theorem runStep_run (known : List Nat) (s : RangeState) (r : Nat × Nat × Nat) (h : r.1 ≤ r.2.1) :
    ((runLines r).foldl (rangeStep known) s).rev = runStep known s.rev r := by
  obtain ⟨a, l, k⟩ := r
  simp only at h
  unfold runLines
  simp only
  rw [show l + 1 - a = (l - a) + 1 by omega, runLines_step]
  have := runStep_single known s a k
  have e : ∀ (s : RangeState) n, ({ s with next := n } : RangeState).rev = { s.rev with next := n } := fun _ _ => rfl
  rw [e, this, show a + (l - a) + 1 = l + 1 by omega]
  unfold runStep
  simp only
  split <;> rfl

theorem runs_fold (known : List Nat) : ∀ (rs : List (Nat × Nat × Nat)) (s : RangeState), rs.all (fun r => Nat.ble r.1 r.2.1) = true →
    ((rs.flatMap runLines).foldl (rangeStep known) s).rev = rs.foldl (runStep known) s.rev
  | [], _, _ => rfl
  | r :: rs, s, h => by
    rw [List.all_cons, Bool.and_eq_true, Nat.ble_eq] at h
    rw [List.flatMap_cons, List.foldl_append, runs_fold known rs _ h.2, runStep_run known s r h.1, List.foldl_cons]

/-- the ranges, in reverse order -/
def runRanges (known : List Nat) (rs : List (Nat × Nat × Nat)) : List ClassRange :=
  let s := rs.foldl (runStep known) ⟨[], none, 0, 0⟩
  match s.rangeClass with
  | some k => (s.rangeStart, s.next - 1, .one k) :: s.ranges
  | none => s.ranges

theorem classRanges_runs (known : List Nat) (rs : List (Nat × Nat × Nat)) (h : rs.all (fun r => Nat.ble r.1 r.2.1) = true) :
    classRanges known (rs.flatMap runLines) = (runRanges known rs).reverse := by
  unfold classRanges runRanges
  have := runs_fold known rs ⟨[], none, 0, 0⟩ h
  have e : (⟨[], none, 0, 0⟩ : RangeState).rev = ⟨[], none, 0, 0⟩ := rfl
  rw [e] at this
  rw [← this]
  generalize (rs.flatMap runLines).foldl (rangeStep known) ⟨[], none, 0, 0⟩ = s
  unfold RangeState.flush RangeState.rev
  simp only
  cases s.rangeClass <;> simp

/-! The same as streams: the kernel evaluates them element by element. -/

def pending (cls : Option Nat) (start next : Nat) (rest : List ClassRange) : List ClassRange :=
  match cls with
  | some k => (start, next - 1, .one k) :: rest
  | none => rest

def streamRuns (known : List Nat) : List (Nat × Nat × Nat) → Option Nat → Nat → Nat → List ClassRange
  | [], cls, start, next => pending cls start next []
  | r :: rs, cls, start, next =>
    if (r.1 = next ∨ r.1 ∈ known) ∧ cls = some r.2.2 then streamRuns known rs cls start (r.2.1 + 1)
    else pending cls start next (if r.1 ≠ next then (next, r.1 - 1, .one 30) :: streamRuns known rs (some r.2.2) r.1 (r.2.1 + 1)
      else streamRuns known rs (some r.2.2) r.1 (r.2.1 + 1))

theorem streamRuns_eq (known : List Nat) : ∀ (rs : List (Nat × Nat × Nat)) (acc : List ClassRange) (cls : Option Nat) (start next : Nat),
    (let s := rs.foldl (runStep known) ⟨acc, cls, start, next⟩
     (pending s.rangeClass s.rangeStart s.next s.ranges).reverse) = acc.reverse ++ streamRuns known rs cls start next
  | [], acc, cls, start, next => by
    simp only [List.foldl_nil, streamRuns]
    unfold pending
    cases cls <;> simp
  | r :: rs, acc, cls, start, next => by
    simp only [List.foldl_cons, streamRuns, runStep]
    split
    · exact streamRuns_eq known rs _ _ _ _
    · have := streamRuns_eq known rs
      simp only at this
      rw [this]
      unfold pending
      cases cls <;> simp only <;> split <;> simp

def streamAlt (a e : Nat) (cls : RangeClass) : List ClassRange → List ClassRange
  | [] => [(a, e, cls)]
  | r :: rs =>
    if r.1 = r.2.1 ∧ r.2.2 = .one 1 then
      if e + 1 = r.1 ∧ (cls = .alternating 2 ∨ (cls = .one 2 ∧ a = e)) then streamAlt a r.2.1 (.alternating 1) rs
      else (a, e, cls) :: streamAlt r.1 r.2.1 r.2.2 rs
    else if r.1 = r.2.1 ∧ r.2.2 = .one 2 then
      if e + 1 = r.1 ∧ (cls = .alternating 1 ∨ (cls = .one 1 ∧ a = e)) then streamAlt a r.2.1 (.alternating 2) rs
      else (a, e, cls) :: streamAlt r.1 r.2.1 r.2.2 rs
    else (a, e, cls) :: streamAlt r.1 r.2.1 r.2.2 rs

theorem streamAlt_eq : ∀ (rs : List ClassRange) (acc : List ClassRange) (a e : Nat) (cls : RangeClass),
    (rs.foldl alternatingStep ((a, e, cls) :: acc)).reverse = acc.reverse ++ streamAlt a e cls rs
  | [], acc, a, e, cls => by simp [streamAlt]
  | r :: rs, acc, a, e, cls => by
    rw [List.foldl_cons, streamAlt, alternatingStep]
    have hrec : (rs.foldl alternatingStep (r :: (a, e, cls) :: acc)).reverse =
        acc.reverse ++ ((a, e, cls) :: streamAlt r.1 r.2.1 r.2.2 rs) := by
      have := streamAlt_eq rs ((a, e, cls) :: acc) r.1 r.2.1 r.2.2
      simpa using this
    split
    · split
      · exact streamAlt_eq rs _ _ _ _
      · exact hrec
    · split
      · split
        · exact streamAlt_eq rs _ _ _ _
        · exact hrec
      · exact hrec

def streamOpt (a e : Nat) (cls : RangeClass) : List ClassRange → List ClassRange
  | [] => [(a, e, cls)]
  | r :: rs =>
    match cls, r.2.2 with
    | .one k, .one last => if r.1 = r.2.1 then streamOpt a r.2.1 (.two k last) rs else (a, e, cls) :: streamOpt r.1 r.2.1 r.2.2 rs
    | _, _ => (a, e, cls) :: streamOpt r.1 r.2.1 r.2.2 rs

theorem streamOpt_eq : ∀ (rs : List ClassRange) (acc : List ClassRange) (a e : Nat) (cls : RangeClass),
    (rs.foldl unassignedStep ((a, e, cls) :: acc)).reverse = acc.reverse ++ streamOpt a e cls rs
  | [], acc, a, e, cls => by simp [streamOpt]
  | r :: rs, acc, a, e, cls => by
    have hrec : (rs.foldl unassignedStep (r :: (a, e, cls) :: acc)).reverse =
        acc.reverse ++ ((a, e, cls) :: streamOpt r.1 r.2.1 r.2.2 rs) := by
      have := streamOpt_eq rs ((a, e, cls) :: acc) r.1 r.2.1 r.2.2
      simpa using this
    rw [List.foldl_cons, streamOpt.eq_def]
    obtain ⟨x, y, z⟩ := r
    simp only [unassignedStep]
    cases cls <;> cases z <;> simp only <;> first | exact hrec | skip
    split
    · exact streamOpt_eq rs _ _ _ _
    · exact hrec

def start1 (f : Nat → Nat → RangeClass → List ClassRange → List ClassRange) : List ClassRange → List ClassRange
  | [] => []
  | r :: rs => f r.1 r.2.1 r.2.2 rs

theorem optimizeAlternating_stream (rs : List ClassRange) : optimizeAlternating rs = start1 streamAlt rs := by
  unfold optimizeAlternating
  cases rs with
  | nil => rfl
  | cons r rs =>
    rw [List.foldl_cons]
    exact streamAlt_eq rs [] r.1 r.2.1 r.2.2

theorem optimizeUnassigned_stream (rs : List ClassRange) : optimizeUnassigned rs = start1 streamOpt rs := by
  unfold optimizeUnassigned
  cases rs with
  | nil => rfl
  | cons r rs =>
    rw [List.foldl_cons]
    exact streamOpt_eq rs [] r.1 r.2.1 r.2.2

/-- do the ranges have the given encodings? -/
def streamCheck : List ClassRange → List Nat → Bool
  | [], [] => true
  | r :: rs, e :: es => Nat.beq (encodeValue r.2.1 r.2.2) e && streamCheck rs es
  | _, _ => false

theorem streamCheck_eq : ∀ (rs : List ClassRange) (es : List Nat), streamCheck rs es = true →
    rs.map (fun r => encodeValue r.2.1 r.2.2) = es
  | [], [], _ => rfl
  | r :: rs, e :: es, h => by
    rw [streamCheck, Bool.and_eq_true, Nat.beq_eq] at h
    rw [List.map_cons, h.1, streamCheck_eq rs es h.2]

theorem classTable_check {known : List Nat} {rs : List (Nat × Nat × Nat)} {tbl : List Nat}
    (h : rs.all (fun r => Nat.ble r.1 r.2.1) = true)
    (hc : streamCheck (start1 streamOpt (start1 streamAlt (streamRuns known rs none 0 0))) tbl = true) :
    classTableWith known (rs.flatMap runLines) = tbl := by
  have := streamRuns_eq known rs [] none 0 0
  unfold classTableWith
  rw [classRanges_runs known rs h, optimizeUnassigned_stream, optimizeAlternating_stream]
  have e : (runRanges known rs).reverse = streamRuns known rs none 0 0 := by
    rw [List.reverse_nil, List.nil_append] at this
    rw [← this]; rfl
  rw [e]
  exact streamCheck_eq _ _ hc

theorem runs_ok : (runsOf UD_RANGES).all (fun r => Nat.ble r.1 r.2.1) = true := by decide +kernel

theorem stream_UD : streamCheck (start1 streamOpt (start1 streamAlt (streamRuns KNOWN_RANGES (runsOf UD_RANGES) none 0 0)))
    COMPLETE_CHAR_CLASSES = true := by decide +kernel

/-! ### The classes of the lines of the file -/

/-- the category of `c` in a list of ranges -/
def catIn (rows : List (Nat × Nat × Nat × Nat)) (c : Nat) : Nat :=
  match rows.find? (fun r => r.1 ≤ c ∧ c ≤ r.2.1) with
  | some r => r.2.2.1
  | none => 29

/-- ascending ranges; ranges with two lines end in `known`, and no other range is mistaken for the end of one -/
def rowsGood (known : List Nat) : Nat → Option Nat → List (Nat × Nat × Nat × Nat) → Bool
  | _, _, [] => true
  | pos, prev, r :: rows =>
    Nat.ble pos r.1 && (Nat.ble r.1 r.2.1 && (Nat.blt r.2.2.1 30 &&
    (((Nat.beq r.1 pos || !known.elem r.1) || prev != some (r.2.2.1 + 1)) &&
    ((Nat.beq r.2.2.2 0 || (known.elem r.2.1 && Nat.blt r.1 r.2.1)) &&
    rowsGood known (r.2.1 + 1) (some (r.2.2.1 + 1)) rows))))

theorem rowsGood_cons {known : List Nat} {pos : Nat} {prev : Option Nat} {r : Nat × Nat × Nat × Nat}
    {rows : List (Nat × Nat × Nat × Nat)} (h : rowsGood known pos prev (r :: rows) = true) :
    pos ≤ r.1 ∧ r.1 ≤ r.2.1 ∧ r.2.2.1 < 30 ∧ (r.1 = pos ∨ r.1 ∉ known ∨ prev ≠ some (r.2.2.1 + 1)) ∧
    (r.2.2.2 = 0 ∨ (r.2.1 ∈ known ∧ r.1 < r.2.1)) ∧ rowsGood known (r.2.1 + 1) (some (r.2.2.1 + 1)) rows = true := by
  simp only [rowsGood, Bool.and_eq_true, Bool.or_eq_true, Nat.ble_eq, Nat.blt_eq, Nat.beq_eq, Bool.not_eq_true',
    List.elem_eq_mem, decide_eq_true_eq, decide_eq_false_iff_not, bne_iff_ne] at h
  obtain ⟨h1, h2, h3, h4, h5, h6⟩ := h
  exact ⟨h1, h2, h3, by rcases h4 with (h4 | h4) | h4 <;> simp [h4], h5, h6⟩

theorem rowsGood_ge {known : List Nat} : ∀ {rows : List (Nat × Nat × Nat × Nat)} {pos : Nat} {prev : Option Nat},
    rowsGood known pos prev rows = true → ∀ r ∈ rows, pos ≤ r.1
  | [], _, _, _, r, hr => by cases hr
  | q :: rows, pos, prev, h, r, hr => by
    obtain ⟨h1, h2, _, _, _, h6⟩ := rowsGood_cons h
    rcases List.mem_cons.mp hr with rfl | hr
    · exact h1
    · have := rowsGood_ge h6 r hr
      omega

theorem runLines_cons (a l k : Nat) (h : a ≤ l) : runLines (a, l, k) = (a, k) :: (List.range' (a + 1) (l - a)).map (fun c => (c, k)) := by
  unfold runLines
  simp only
  rw [show l + 1 - a = (l - a) + 1 by omega, List.range'_succ, List.map_cons]

theorem classFrom_run (known : List Nat) : ∀ (n a k : Nat) (prev : Option Nat) (rest : List (Nat × Nat)) (c : Nat), a ≤ c →
    classFrom known prev ((List.range' a (n + 1)).map (fun c => (c, k)) ++ rest) c =
      if c ≤ a + n then k else classFrom known (some k) rest c
  | 0, a, k, prev, rest, c, h => by
    show classFrom known prev ((a, k) :: rest) c = _
    rw [classFrom, if_neg (by omega)]
    by_cases hc : c = a
    · rw [if_pos hc, if_pos (by omega)]
    · rw [if_neg hc, if_neg (by omega)]
  | n + 1, a, k, prev, rest, c, h => by
    rw [List.range'_succ, List.map_cons, List.cons_append, classFrom, if_neg (by omega)]
    by_cases hc : c = a
    · rw [if_pos hc, if_pos (by omega)]
    · rw [if_neg hc, classFrom_run known n (a + 1) k _ rest c (by omega)]
      have : a + 1 + n = a + (n + 1) := by omega
      rw [this]

theorem classFrom_rows {known : List Nat} : ∀ {rows : List (Nat × Nat × Nat × Nat)} {pos : Nat} {prev : Option Nat},
    rowsGood known pos prev rows = true → ∀ c, pos ≤ c →
    classFrom known prev ((runsOf rows).flatMap runLines) c = catIn rows c + 1
  | [], _, _, _, c, _ => rfl
  | (f, l, g, kd) :: rows, pos, prev, h, c, hc => by
    have hg := h
    obtain ⟨h1, h2, h3, h4, h5, h6⟩ := rowsGood_cons h
    simp only at h1 h2 h3 h4 h5 h6
    have later : l < c → catIn ((f, l, g, kd) :: rows) c = catIn rows c := by
      intro hl; unfold catIn
      rw [List.find?_cons_of_neg (by simp only [decide_eq_true_eq]; omega)]
    have here : f ≤ c → c ≤ l → catIn ((f, l, g, kd) :: rows) c = g := by
      intro a b; unfold catIn
      rw [List.find?_cons_of_pos (by simp only [decide_eq_true_eq]; omega)]
    have before : c < f → catIn ((f, l, g, kd) :: rows) c = 29 := by
      intro hl; unfold catIn
      rw [List.find?_eq_none.mpr]
      intro r hr
      simp only [decide_eq_true_eq]
      rcases List.mem_cons.mp hr with rfl | hr
      · simp only; omega
      · have := rowsGood_ge h6 r hr; omega
    have hgap : c < f → ∀ (x : List (Nat × Nat)), classFrom known prev ((f, g + 1) :: x) c = 30 := by
      intro hl x
      rw [classFrom, if_pos hl, if_neg]
      rintro ⟨m, p⟩
      rcases h4 with h4 | h4 | h4
      · omega
      · exact h4 m
      · exact h4 p
    have hrec := fun h => classFrom_rows h6 c h
    unfold runsOf at hrec ⊢
    rw [List.flatMap_cons, List.flatMap_append]
    by_cases hk : kd = 0
    · simp only
      rw [if_pos hk, List.flatMap_singleton]
      by_cases hcf : c < f
      · rw [before hcf, runLines_cons _ _ _ h2, List.cons_append, hgap hcf]
      · unfold runLines
        simp only
        rw [show l + 1 - f = (l - f) + 1 by omega, classFrom_run known _ _ _ _ _ _ (by omega)]
        by_cases hcl : c ≤ l
        · rw [if_pos (by omega), here (by omega) hcl]
        · rw [if_neg (by omega), later (by omega)]
          exact hrec (by omega)
    · simp only
      rw [if_neg hk]
      obtain ⟨h5a, h5b⟩ := h5.resolve_left hk
      have e : List.flatMap runLines [(f, f, g + 1), (l, l, g + 1)] = [(f, g + 1), (l, g + 1)] := by
        simp [runLines, Nat.add_sub_cancel_left]
      rw [e, List.cons_append, List.cons_append, List.nil_append]
      by_cases hcf : c < f
      · rw [before hcf, hgap hcf]
      · rw [classFrom, if_neg hcf]
        by_cases hc1 : c = f
        · rw [if_pos hc1, here (by omega) (by omega)]
        · rw [if_neg hc1, classFrom]
          by_cases hcl : c < l
          · rw [if_pos hcl, if_pos ⟨h5a, rfl⟩, here (by omega) (by omega)]
          · rw [if_neg hcl]
            by_cases hc2 : c = l
            · rw [if_pos hc2, here (by omega) (by omega)]
            · rw [if_neg hc2, later (by omega)]
              exact hrec (by omega)

theorem ascends_run : ∀ (n a k pos : Nat) (rest : List (Nat × Nat)), pos ≤ a → IsClass k → Ascends (a + n + 1) rest →
    Ascends pos ((List.range' a (n + 1)).map (fun c => (c, k)) ++ rest)
  | 0, _, _, _, _, h1, h2, h3 => ⟨h1, h2, h3⟩
  | n + 1, a, k, pos, rest, h1, h2, h3 => by
    rw [List.range'_succ, List.map_cons, List.cons_append]
    exact ⟨h1, h2, ascends_run n (a + 1) k (a + 1) rest (Nat.le_refl _) h2 (by rw [show a + 1 + n + 1 = a + (n + 1) + 1 by omega]; exact h3)⟩

theorem ascends_rows {known : List Nat} : ∀ {rows : List (Nat × Nat × Nat × Nat)} {pos : Nat} {prev : Option Nat},
    rowsGood known pos prev rows = true → Ascends pos ((runsOf rows).flatMap runLines)
  | [], _, _, _ => trivial
  | (f, l, g, kd) :: rows, pos, prev, h => by
    obtain ⟨h1, h2, h3, h4, h5, h6⟩ := rowsGood_cons h
    simp only at h1 h2 h3 h4 h5 h6
    have hrec := ascends_rows h6
    have hcls : IsClass (g + 1) := ⟨by omega, by omega⟩
    unfold runsOf at hrec ⊢
    rw [List.flatMap_cons, List.flatMap_append]
    by_cases hk : kd = 0
    · simp only
      rw [if_pos hk, List.flatMap_singleton]
      unfold runLines at hrec ⊢
      simp only
      rw [show l + 1 - f = (l - f) + 1 by omega]
      exact ascends_run _ _ _ _ _ h1 hcls (by rw [show f + (l - f) + 1 = l + 1 by omega]; exact hrec)
    · simp only
      rw [if_neg hk]
      obtain ⟨h5a, h5b⟩ := h5.resolve_left hk
      have e : List.flatMap runLines [(f, f, g + 1), (l, l, g + 1)] = [(f, g + 1), (l, g + 1)] := by
        simp [runLines, Nat.add_sub_cancel_left]
      rw [e, List.cons_append, List.cons_append, List.nil_append]
      exact ⟨h1, hcls, by omega, hcls, hrec⟩

theorem pairwise_of_ascends : ∀ {lines : List (Nat × Nat)} {a : Nat}, Ascends a lines → lines.Pairwise (fun x y => x.1 < y.1)
  | [], _, _ => .nil
  | l :: lines, a, ⟨h1, h2, h3⟩ => by
    rw [List.pairwise_cons]
    exact ⟨fun y hy => (ascends_ge h3 y hy).1, pairwise_of_ascends h3⟩

theorem UD_rows : rowsGood UD_LAST 0 none UD_RANGES = true := by decide +kernel

theorem UD_runs_lt : (runsOf UD_RANGES).all (fun r => Nat.blt r.2.1 2097152) = true := by decide +kernel

theorem UD_runs_ascii : (List.range 128).all (fun i => (runsOf UD_RANGES).any (fun r => Nat.ble r.1 i && Nat.ble i r.2.1)) = true := by
  decide +kernel

theorem UD_lines_lt : ∀ l ∈ UD_LINES, l.1 < 2 ^ 21 := by
  intro l hl
  rw [UD_LINES_runs] at hl
  obtain ⟨r, hr, hlr⟩ := List.mem_flatMap.mp hl
  have := List.all_eq_true.mp UD_runs_lt r hr
  rw [Nat.blt_eq] at this
  unfold runLines at hlr
  obtain ⟨c, hc, rfl⟩ := List.mem_map.mp hlr
  rw [List.mem_range'_1] at hc
  simp only; omega

theorem UD_lines_ascii : ∀ i < 128, ∃ k, (i, k) ∈ UD_LINES := by
  intro i hi
  have := List.all_eq_true.mp UD_runs_ascii i (List.mem_range.mpr hi)
  obtain ⟨r, hr, h⟩ := List.any_eq_true.mp this
  rw [Bool.and_eq_true, Nat.ble_eq, Nat.ble_eq] at h
  refine ⟨r.2.2, ?_⟩
  rw [UD_LINES_runs]
  refine List.mem_flatMap.mpr ⟨r, hr, ?_⟩
  unfold runLines
  exact List.mem_map.mpr ⟨i, by rw [List.mem_range'_1]; omega, rfl⟩

theorem UD_ascends : Ascends 0 UD_LINES := by rw [UD_LINES_runs]; exact ascends_rows UD_rows

theorem UD_pairwise : UD_LINES.Pairwise (fun x y => x.1 < y.1) := pairwise_of_ascends UD_ascends

theorem UD_lines_ok : ∀ l ∈ UD_LINES, l.1 < 2 ^ 21 ∧ 1 ≤ l.2 ∧ l.2 ≤ 30 :=
  fun l hl => ⟨UD_lines_lt l hl, (ascends_ge UD_ascends l hl).2⟩

end Ystring.Gen
