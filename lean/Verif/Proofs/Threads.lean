import Verif.Spec.Threads
/- Interleavings of calls that do not touch each other's buffers. -/
namespace Ystring.Thr
open Ptr Spec

variable {ι α β : Type}

theorem bind_def (p : Prog α) (f : α → Prog β) : (p >>= f) = p.bind f := rfl

theorem bind_assoc' {γ : Type} (p : Prog α) (f : α → Prog β) (g : β → Prog γ) :
    (p.bind f).bind g = p.bind fun a => (f a).bind g := by
  induction p with
  | done r => cases r <;> rfl
  | load a k ih => simp only [Prog.bind, ih]
  | store a x p ih => simp only [Prog.bind, ih]

theorem alone_bind (p : Prog α) (f : α → Prog β) (m : Mem) :
    alone (p >>= f) m = match alone p m with
      | (.ok a, m') => alone (f a) m'
      | (.error e, m') => (.error e, m') := by
  rw [bind_def]
  induction p generalizing m with
  | done r => cases r <;> rfl
  | load a k ih => exact ih _ _
  | store a x p ih => exact ih _

theorem alone_ok {p : Prog α} {f : α → Prog β} {m m' : Mem} {a : α} (h : alone p m = (.ok a, m')) :
    alone (p >>= f) m = alone (f a) m' := by rw [alone_bind, h]

theorem alone_err {p : Prog α} {f : α → Prog β} {m m' : Mem} {e : Err} (h : alone p m = (.error e, m')) :
    alone (p >>= f) m = (.error e, m') := by rw [alone_bind, h]

/-- all accesses of a program are reads at addresses in `R` and assignments at addresses in `W` -/
inductive Within (R W : Nat → Prop) : Prog α → Prop
  | done (r : Res α) : Within R W (.done r)
  | load {a : Nat} {k : UInt8 → Prog α} (h : R a) (hk : ∀ c, Within R W (k c)) : Within R W (.load a k)
  | store {a : Nat} {x : UInt8} {p : Prog α} (h : W a) (hp : Within R W p) : Within R W (.store a x p)

theorem Within.mono {R W R' W' : Nat → Prop} (hr : ∀ a, R a → R' a) (hw : ∀ a, W a → W' a) {p : Prog α} (h : Within R W p) :
    Within R' W' p := by
  induction h with
  | done r => exact .done r
  | load h _ ih => exact .load (hr _ h) ih
  | store h _ ih => exact .store (hw _ h) ih

theorem Within.bind {R W : Nat → Prop} {p : Prog α} {f : α → Prog β} (h : Within R W p) (hf : ∀ a, Within R W (f a)) :
    Within R W (p >>= f) := by
  rw [bind_def]
  induction h with
  | done r => cases r with
    | ok a => exact hf a
    | error e => exact .done _
  | load h _ ih => exact .load h ih
  | store h _ ih => exact .store h ih

theorem assign_same (m : Mem) (a : Nat) (x : UInt8) : assign m a x a = x := if_pos rfl
theorem assign_other (m : Mem) {a b : Nat} (x : UInt8) (h : b ≠ a) : assign m a x b = m b := if_neg h

/-- what a call does depends on the bytes it may use only -/
theorem alone_agree {R W : Nat → Prop} {p : Prog α} (h : Within R W p) : ∀ {m m' : Mem}, (∀ a, R a ∨ W a → m a = m' a) →
    (alone p m).1 = (alone p m').1 ∧ ∀ a, R a ∨ W a → (alone p m).2 a = (alone p m').2 a := by
  induction h with
  | done r => exact fun hm => ⟨rfl, hm⟩
  | load h _ ih =>
    intro m m' hm
    simp only [alone]
    rw [hm _ (.inl h)]
    exact ih _ hm
  | @store a x p h _ ih =>
    intro m m' hm
    simp only [alone]
    refine ih fun b hb => ?_
    by_cases e : b = a
    · rw [e, assign_same, assign_same]
    · rw [assign_other _ _ e, assign_other _ _ e, hm b hb]

/-- a call changes only its buffers -/
theorem alone_outside {R W : Nat → Prop} {p : Prog α} (h : Within R W p) : ∀ {m : Mem} {a : Nat}, ¬ W a → (alone p m).2 a = m a := by
  induction h with
  | done r => exact fun _ => rfl
  | load h _ ih => exact fun ha => ih _ ha
  | @store b x p h _ ih =>
    intro m a ha
    simp only [alone]
    rw [ih ha, assign_other]
    intro e
    exact ha (e ▸ h)

/-- the number of accesses that are left -/
def steps : Prog α → Mem → Nat
  | .done _, _ => 0
  | .load a k, m => steps (k (m a)) m + 1
  | .store a x p, m => steps p (assign m a x) + 1

theorem steps_agree {R W : Nat → Prop} {p : Prog α} (h : Within R W p) : ∀ {m m' : Mem}, (∀ a, R a ∨ W a → m a = m' a) →
    steps p m = steps p m' := by
  induction h with
  | done r => exact fun hm => rfl
  | load h _ ih =>
    intro m m' hm
    simp only [steps]
    rw [hm _ (.inl h)]
    rw [ih _ hm]
  | @store a x p h _ ih =>
    intro m m' hm
    simp only [steps]
    rw [ih]
    intro b hb
    by_cases e : b = a
    · rw [e, assign_same, assign_same]
    · rw [assign_other _ _ e, assign_other _ _ e, hm b hb]

variable [DecidableEq ι]

/-- what holds at every time: each thread is on its own way -/
structure Inv (R W : ι → Nat → Prop) (s₀ s : State ι α) : Prop where
  within : ∀ i, Within (R i) (W i) (s.left i)
  result : ∀ i, (alone (s.left i) s.mem).1 = (alone (s₀.left i) s₀.mem).1
  mem : ∀ i a, R i a ∨ W i a → (alone (s.left i) s.mem).2 a = (alone (s₀.left i) s₀.mem).2 a
  outside : ∀ a, (∀ i, ¬ W i a) → s.mem a = s₀.mem a

theorem Inv.step {R W : ι → Nat → Prop} (hd : ∀ i j, i ≠ j → ∀ a, W i a → ¬ R j a ∧ ¬ W j a) {s₀ s : State ι α}
    (h : Inv R W s₀ s) (i : ι) : Inv R W s₀ (s.step i) := by
  have hw := h.within i
  unfold State.step
  split
  · exact h
  · rename_i a k e
    rw [e] at hw
    cases hw with
    | load ha hk =>
    refine ⟨fun j => ?_, fun j => ?_, fun j b hb => ?_, h.outside⟩
    · show Within _ _ (if j = i then _ else _)
      split
      · rename_i e'; exact e' ▸ hk _
      · exact h.within j
    · rw [← h.result j]
      show (alone (if j = i then _ else _) _).1 = _
      split
      · rename_i e'; rw [e', e]; rfl
      · rfl
    · rw [← h.mem j b hb]
      show (alone (if j = i then _ else _) _).2 b = _
      split
      · rename_i e'; rw [e', e]; rfl
      · rfl
  · rename_i a x p e
    rw [e] at hw
    cases hw with
    | store ha hp =>
    have hag : ∀ j, j ≠ i → ∀ b, R j b ∨ W j b → s.mem b = assign s.mem a x b := by
      intro j hj b hb
      rw [assign_other]
      intro e'
      have := hd i j (Ne.symm hj) a ha
      rw [← e'] at this
      exact hb.elim this.1 this.2
    refine ⟨fun j => ?_, fun j => ?_, fun j b hb => ?_, fun b hb => ?_⟩
    · show Within _ _ (if j = i then _ else _)
      split
      · rename_i e'; exact e' ▸ hp
      · exact h.within j
    · rw [← h.result j]
      show (alone (if j = i then _ else _) (assign s.mem a x)).1 = _
      split
      · rename_i e'; rw [e', e]; rfl
      · rename_i e'; exact ((alone_agree (h.within j) (hag j e')).1).symm
    · rw [← h.mem j b hb]
      show (alone (if j = i then _ else _) (assign s.mem a x)).2 b = _
      split
      · rename_i e'; rw [e', e]; rfl
      · rename_i e'; exact ((alone_agree (h.within j) (hag j e')).2 b hb).symm
    · rw [← h.outside b hb]
      refine assign_other _ _ fun e' => ?_
      rw [e'] at hb
      exact hb i ha

theorem Inv.after {R W : ι → Nat → Prop} (hd : ∀ i j, i ≠ j → ∀ a, W i a → ¬ R j a ∧ ¬ W j a) {s₀ : State ι α} (σ : List ι) :
    ∀ {s : State ι α}, Inv R W s₀ s → Inv R W s₀ (s.after σ) := by
  induction σ with
  | nil => exact fun h => h
  | cons i σ ih => exact fun h => ih (h.step hd i)

omit [DecidableEq ι] in
theorem Inv.start {R W : ι → Nat → Prop} {s : State ι α} (h : ∀ i, Within (R i) (W i) (s.left i)) : Inv R W s s :=
  ⟨h, fun _ => rfl, fun _ _ _ => rfl, fun _ _ => rfl⟩

omit [DecidableEq ι] in
theorem Inv.no_race {R W : ι → Nat → Prop} (hd : ∀ i j, i ≠ j → ∀ a, W i a → ¬ R j a ∧ ¬ W j a) {s₀ s : State ι α}
    (h : Inv R W s₀ s) : ¬ s.Race := by
  rintro ⟨i, j, a, hij, ⟨x, q, e⟩, h2⟩
  have hi := h.within i
  rw [e] at hi
  have hj := h.within j
  have := hd i j hij
  cases hi with
  | store ha _ =>
  obtain ⟨k, e2⟩ | ⟨y, q', e2⟩ := h2
  · rw [e2] at hj
    cases hj with
    | load hb _ => exact (this a ha).1 hb
  · rw [e2] at hj
    cases hj with
    | store hb _ => exact (this a ha).2 hb

/-- a step of thread `i` makes it shorter, steps of the others change nothing -/
theorem steps_step {R W : ι → Nat → Prop} (hd : ∀ i j, i ≠ j → ∀ a, W i a → ¬ R j a ∧ ¬ W j a) {s : State ι α}
    (h : ∀ i, Within (R i) (W i) (s.left i)) (i j : ι) :
    steps ((s.step j).left i) (s.step j).mem = steps (s.left i) s.mem - if j = i then 1 else 0 := by
  have hw := h j
  unfold State.step
  split
  · rename_i r e
    split
    · rename_i e'; rw [← e', e]; rfl
    · rfl
  · rename_i a k e
    show steps (if i = j then _ else _) _ = _
    by_cases hij : i = j
    · rw [if_pos hij, if_pos hij.symm, hij, e]; rfl
    · rw [if_neg hij, if_neg (Ne.symm hij)]; rfl
  · rename_i a x p e
    rw [e] at hw
    cases hw with
    | store ha hp =>
    show steps (if i = j then _ else _) (assign s.mem a x) = _
    by_cases hij : i = j
    · rw [if_pos hij, if_pos hij.symm, hij, e]; rfl
    · rw [if_neg hij, if_neg (Ne.symm hij)]
      refine (steps_agree (h i) fun b hb => ?_).symm
      rw [assign_other]
      intro e'
      have := hd j i (Ne.symm hij) a ha
      rw [← e'] at this
      exact hb.elim this.1 this.2

theorem steps_zero {p : Prog α} {m : Mem} (h : steps p m = 0) : ∃ r, p = .done r := by
  cases p with
  | done r => exact ⟨r, rfl⟩
  | load a k => simp [steps] at h
  | store a x p => simp [steps] at h

theorem steps_after {R W : ι → Nat → Prop} (hd : ∀ i j, i ≠ j → ∀ a, W i a → ¬ R j a ∧ ¬ W j a) (i : ι) (σ : List ι) :
    ∀ {s : State ι α}, (∀ i, Within (R i) (W i) (s.left i)) →
    steps ((s.after σ).left i) (s.after σ).mem = steps (s.left i) s.mem - σ.count i := by
  induction σ with
  | nil => exact fun _ => rfl
  | cons j σ ih =>
    intro s h
    show steps (((s.step j).after σ).left i) _ = _
    rw [show (s.after (j :: σ)).mem = ((s.step j).after σ).mem from rfl, ih ((Inv.start h).step hd j).within, steps_step hd h,
      List.count_cons]
    by_cases e : j = i
    · simp [e]; omega
    · simp [e]

/-! ### Programs that check their accesses -/

/-- the addresses of a range -/
def Mem' (r : Range) (a : Nat) : Prop := r.first ≤ a ∧ a < r.last

theorem within_load {R W : Nat → Prop} {r : Range} (h : ∀ a, Mem' r a → R a) (it : Nat) : Within R W (load r it) := by
  unfold load
  split
  · rename_i h'; exact .load (h it h') fun c => .done _
  · exact .done _

theorem within_store {R W : Nat → Prop} {r : Range} (h : ∀ a, Mem' r a → W a) (it : Nat) (x : UInt8) : Within R W (store r it x) := by
  unfold store
  split
  · rename_i h'; exact .store (h it h') (.done _)
  · exact .done _

theorem within_fin {R W : Nat → Prop} (r : Res α) : Within R W (fin r) := .done _

theorem within_ptr {R W : Nat → Prop} (r : Range) (it : Nat) : Within R W (ptr r it) := by
  unfold ptr; split <;> exact .done _

theorem within_back {R W : Nat → Prop} (r : Range) (k it : Nat) : Within R W (back r k it) := by
  unfold back; split <;> exact .done _

end Ystring.Thr
