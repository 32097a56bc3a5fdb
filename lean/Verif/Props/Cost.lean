import Verif.Proofs.CostBound2
/-
C108: how many bytes the functions read. `Cost.f` is the model of `f` with a counter for the bytes it reads; `val` is its
outcome and `reads` the number of bytes. All bounds hold for all byte strings, valid or not, whether the function returns or throws.
-/
namespace Ystring

/-- C108: the counting models compute what the other models compute. -/
theorem C108_same (s t : Str) (c : Char32) (pred : Char32 → Bool) (o : Nat) (k : Int) (cs mem : List Char32) (params : SplitParams) :
    (Cost.contains s c).val = contains s c ∧
    (Cost.isValidUtf8 s).val = isValidUtf8 s ∧
    (Cost.toUtf32 s).val = toUtf32 s ∧
    (Cost.toLower s).val = toLower s ∧ (Cost.toTitle s).val = toTitle s ∧ (Cost.toUpper s).val = toUpper s ∧
    (Cost.findFirstWhere s pred o).val = findFirstWhere s pred o ∧
    (Cost.findLastWhere s pred o).val = findLastWhere s pred o ∧
    (Cost.reverse s).val = reverse s ∧
    (Cost.countChars s).val = countChars s ∧
    (Cost.countCodepoints s).val = countCodepoints s ∧
    (Cost.getCharPos s k).val = getCharPos s k ∧
    (Cost.getCodepointPos s k).val = getCodepointPos s k ∧
    (Cost.replaceInvalidUtf8 s c).val = replaceInvalidUtf8 s c ∧
    (Cost.splitChars s cs params).val = splitChars s cs params ∧
    (Cost.splitLines mem s params).val = splitLines mem s params ∧
    (Cost.trimStartWhere s pred).val = trimStartWhere s pred ∧
    (Cost.trimEndWhere s pred).val = trimEndWhere s pred ∧
    (Cost.trimWhere s pred).val = trimWhere s pred ∧
    (Cost.compare s t).val = CI.compare s t ∧ (Cost.equal s t).val = CI.equal s t ∧ (Cost.less s t).val = CI.less s t ∧
    (Cost.startsWith s t).val = CI.startsWith s t ∧ (Cost.endsWith s t).val = CI.endsWith s t ∧
    (Cost.findFirst s t o).val = CI.findFirst s t o ∧ (Cost.findLast s t o).val = CI.findLast s t o :=
  ⟨Cost.val_containsLoop _ _ _, Cost.val_isValidUtf8Loop _ _, Cost.val_toUtf32Loop _ _ _, Cost.val_toLowerLoop _ _ _,
    Cost.val_toTitleLoop _ _ _ _, Cost.val_toUpperLoop _ _ _, Cost.val_findFirstWhere _ _ _, Cost.val_findLastWhere _ _ _,
    Cost.val_reverseLoop _ _ _ _, Cost.val_countCharsLoop _ _ _ _, Cost.val_countCodepointsLoop _ _ _, Cost.val_getCharPos _ _,
    Cost.val_getCodepointPos _ _, Cost.val_replaceInvalidLoop _ _ _ _ _, Cost.val_splitChars _ _ _, Cost.val_splitLines _ _ _,
    Cost.val_trimStartWhere _ _, Cost.val_trimEndWhere _ _, Cost.val_trimWhere _ _, Cost.val_compareLoop _ _ _,
    Cost.val_equalLoop _ _ _, Cost.val_lessLoop _ _ _, Cost.val_startsWith _ _, Cost.val_endsWith _ _, Cost.val_findFirst _ _ _,
    Cost.val_findLast _ _ _⟩

/-- C108: these functions read no byte twice. -/
theorem C108_once (s : Str) (c : Char32) (pred : Char32 → Bool) (o : Nat) (cs : List Char32) (params : SplitParams)
    (hl : s.length < npos) :
    (Cost.contains s c).reads ≤ s.length ∧
    (Cost.isValidUtf8 s).reads ≤ s.length ∧
    (Cost.toUtf32 s).reads ≤ s.length ∧
    (Cost.toLower s).reads ≤ s.length ∧ (Cost.toTitle s).reads ≤ s.length ∧ (Cost.toUpper s).reads ≤ s.length ∧
    (Cost.findFirstWhere s pred o).reads ≤ s.length - o ∧
    (Cost.findLastWhere s pred o).reads ≤ min o s.length ∧
    (Cost.reverse s).reads ≤ s.length ∧
    (Cost.splitChars s cs params).reads ≤ s.length ∧
    (Cost.trimStartWhere s pred).reads ≤ s.length ∧
    (Cost.trimEndWhere s pred).reads ≤ s.length :=
  have h := Nat.le_refl s.length
  ⟨(Cost.wp_containsLoop c _ s _ h).1, (Cost.wp_isValidUtf8Loop _ s _ h).1, (Cost.wp_toUtf32Loop _ s [] _ h).1,
    (Cost.wp_toLowerLoop _ s [] _ h).1, (Cost.wp_toTitleLoop _ s [] false _ h).1, (Cost.wp_toUpperLoop _ s [] _ h).1,
    (Cost.wp_findFirstWhere_le s pred o _ (Nat.le_refl _)).1, (Cost.wp_findLastWhere s pred o _ (Nat.le_refl _)).1,
    (Cost.wp_reverseLoop s _ s.length [] _ h).1, (Cost.wp_splitChars s cs params _ hl h).1,
    (Cost.wp_trimStartWhere s pred _ h).1, (Cost.wp_trimEndWhere s pred _ h).1⟩

/-- C108: functions that go through the string once more, or look ahead: counting and locating characters and code points, replacing
invalid sequences, splitting into lines, trimming on both sides. -/
theorem C108_linear (s : Str) (k : Int) (c : Char32) (mem : List Char32) (params : SplitParams) (pred : Char32 → Bool)
    (hl : s.length < npos) :
    (Cost.countChars s).reads ≤ 2 * s.length ∧
    (Cost.getCharPos s k).reads ≤ (if 0 ≤ k then 2 else 1) * s.length ∧
    (Cost.countCodepoints s).reads ≤ 2 * s.length ∧
    (Cost.getCodepointPos s k).reads ≤ (if 0 ≤ k then 2 else 5) * s.length ∧
    (Cost.replaceInvalidUtf8 s c).reads ≤ 4 * s.length ∧
    (Cost.splitLines mem s params).reads ≤ 2 * s.length ∧
    (Cost.trimWhere s pred).reads ≤ 2 * s.length := by
  have h2 := Nat.le_refl (2 * s.length)
  have hphi : Cost.phi (s.drop 0) ≤ 2 * s.length := Cost.phi_le s
  refine ⟨(Cost.wp_countCharsLoop s hl _ 0 0 _ hphi).1, ?_, (Cost.wp_countCodepointsLoop _ s 0 _ h2).1,
    (Cost.wp_getCodepointPos s k _ (Nat.le_refl _)).1, (Cost.wp_replaceInvalidLoop _ _ s s [] _ (Nat.le_refl _)).1,
    (Cost.wp_splitLines mem s params _ hl h2).1, (Cost.wp_trimWhere s pred _ h2).1⟩
  unfold Cost.getCharPos
  split
  · exact (Cost.wp_getCharPosFwd s hl _ 0 _ hphi).1
  · rw [Nat.one_mul]
    exact (Cost.wp_getCharPosBwd s _ _ _ (Nat.le_refl _)).1

/-- C108: comparing two strings reads each at most once, and searching for a string ignoring the case reads at most five bytes per pair
of a byte of the string and a byte of the pattern. -/
theorem C108_two (s t : Str) (o : Nat) :
    (Cost.compare s t).reads ≤ s.length + t.length ∧
    (Cost.equal s t).reads ≤ s.length + t.length ∧
    (Cost.less s t).reads ≤ s.length + t.length ∧
    (Cost.startsWith s t).reads ≤ s.length + t.length ∧
    (Cost.endsWith s t).reads ≤ s.length + t.length ∧
    (Cost.findFirst s t o).reads ≤ t.length + 5 * s.length * t.length ∧
    (Cost.findLast s t o).reads ≤ t.length + 5 * s.length * t.length + 3 :=
  have h := Nat.le_refl (s.length + t.length)
  ⟨(Cost.wp_compareLoop _ s t _ h).1, (Cost.wp_equalLoop _ s t _ h).1, (Cost.wp_lessLoop _ s t _ h).1, (Cost.wp_startsWith s t _ h).1,
    (Cost.wp_endsWith s t _ h).1, (Cost.wp_findFirst s t o _ (Nat.le_refl _)).1, (Cost.wp_findLast s t o _ (Nat.le_refl _)).1⟩

/-- a result and the bytes left, from a budget -/
theorem Cost.wp_result {α : Type} {n : Nat} {x : Counted α} {Q : α → Nat → Prop} (h : wp n x Q) {a : α} (e : x.val = .ok a) :
    x.reads ≤ n ∧ Q a (n - x.reads) := ⟨h.1, h.2 a e⟩

/-- C108: starts with and ends with read the first string only as far as it can match the second. -/
theorem C108_prefix (s t : Str) :
    (Cost.startsWith s t).reads ≤ 5 * t.length + 4 ∧ (Cost.endsWith s t).reads ≤ 5 * t.length + 7 :=
  ⟨(Cost.wp_bind (Cost.wp_mono (Cost.wp_nextMismatch _ s t _ (Or.inl (Nat.le_refl _))) fun _ _ _ => Cost.wp_ok trivial) :
      Cost.wp _ (Cost.startsWith s t) fun _ _ => True).1,
   (Cost.wp_bind (Cost.wp_mono (Cost.wp_prevMismatch _ s.reverse t.reverse (5 * t.length + 7)
      (Or.inl (by simp))) fun _ _ _ => Cost.wp_ok trivial) : Cost.wp _ (Cost.endsWith s t) fun _ _ => True).1⟩

/-- C108: the bounds are exact where the whole string has to be looked at: with a normal end these functions read every byte exactly once. -/
theorem C108_all (s : Str) :
    (∀ c, contains s c = .ok false → (Cost.contains s c).reads = s.length) ∧
    (isValidUtf8 s = .ok true → (Cost.isValidUtf8 s).reads = s.length) ∧
    (∀ r, toUtf32 s = .ok r → (Cost.toUtf32 s).reads = s.length) ∧
    (∀ r, toLower s = .ok r → (Cost.toLower s).reads = s.length) ∧
    (∀ r, toTitle s = .ok r → (Cost.toTitle s).reads = s.length) ∧
    (∀ r, toUpper s = .ok r → (Cost.toUpper s).reads = s.length) ∧
    (∀ r, reverse s = .ok r → (Cost.reverse s).reads = s.length) ∧
    (∀ t, CI.equal s t = .ok true → (Cost.equal s t).reads = s.length + t.length) ∧
    (∀ t, CI.compare s t = .ok 0 → (Cost.compare s t).reads = s.length + t.length) := by
  have h := Nat.le_refl s.length
  refine ⟨fun c e => ?_, fun e => ?_, fun r e => ?_, fun r e => ?_, fun r e => ?_, fun r e => ?_, fun r e => ?_, fun t e => ?_,
    fun t e => ?_⟩
  · have := Cost.wp_result (Cost.wp_containsLoop c _ s _ h) ((Cost.val_containsLoop _ _ _).trans e)
    have h2 := this.2 rfl
    unfold Cost.contains; omega
  · have := Cost.wp_result (Cost.wp_isValidUtf8Loop _ s _ h) ((Cost.val_isValidUtf8Loop _ _).trans e)
    have h2 := this.2 rfl
    unfold Cost.isValidUtf8; omega
  · have := Cost.wp_result (Cost.wp_toUtf32Loop _ s [] _ h) ((Cost.val_toUtf32Loop _ _ _).trans e)
    unfold Cost.toUtf32; omega
  · have := Cost.wp_result (Cost.wp_toLowerLoop _ s [] _ h) ((Cost.val_toLowerLoop _ _ _).trans e)
    unfold Cost.toLower; omega
  · have := Cost.wp_result (Cost.wp_toTitleLoop _ s [] false _ h) ((Cost.val_toTitleLoop _ _ _ _).trans e)
    unfold Cost.toTitle; omega
  · have := Cost.wp_result (Cost.wp_toUpperLoop _ s [] _ h) ((Cost.val_toUpperLoop _ _ _).trans e)
    unfold Cost.toUpper; omega
  · have := Cost.wp_result (Cost.wp_reverseLoop s _ s.length [] _ h) ((Cost.val_reverseLoop _ _ _ _).trans e)
    unfold Cost.reverse; omega
  · have := Cost.wp_result (Cost.wp_equalLoop _ s t _ (Nat.le_refl _)) ((Cost.val_equalLoop _ _ _).trans e)
    have h2 := this.2 rfl
    unfold Cost.equal; omega
  · have := Cost.wp_result (Cost.wp_compareLoop _ s t _ (Nat.le_refl _)) ((Cost.val_compareLoop _ _ _).trans e)
    have h2 := this.2 rfl
    unfold Cost.compare; omega

/-- C108: counting and replacing reads every byte. -/
theorem C108_every (s : Str) (c : Char32) (hl : s.length < npos) :
    (∀ n, countChars s = .ok n → s.length ≤ (Cost.countChars s).reads) ∧
    (∀ n, countCodepoints s = .ok n → s.length ≤ (Cost.countCodepoints s).reads) ∧
    (∀ t, replaceInvalidUtf8 s c = .ok t → s.length ≤ (Cost.replaceInvalidUtf8 s c).reads) := by
  refine ⟨fun n e => ?_, fun n e => ?_, fun t e => ?_⟩
  · have := Cost.wp_result (Cost.wp_countCharsLoop s hl _ 0 0 (2 * s.length) (Cost.phi_le s)) ((Cost.val_countCharsLoop _ _ _ _).trans e)
    unfold Cost.countChars; omega
  · have := Cost.wp_result (Cost.wp_countCodepointsLoop _ s 0 _ (Nat.le_refl _)) ((Cost.val_countCodepointsLoop _ _ _).trans e)
    unfold Cost.countCodepoints; omega
  · have := Cost.wp_result (Cost.wp_replaceInvalidLoop _ _ s s [] _ (Nat.le_refl _)) ((Cost.val_replaceInvalidLoop _ _ _ _ _).trans e)
    unfold Cost.replaceInvalidUtf8; omega

/-! Concrete cases: "aé" is 61 C3 A9. -/

example : (Cost.countChars [0x61, 0xC3, 0xA9]).reads = 5 := by decide +kernel
example : (Cost.countCodepoints [0x61, 0xC3, 0xA9, 0x62]).reads = 5 := by decide +kernel
example : (Cost.getCodepointPos [0xC3, 0xA9, 0x80, 0x80, 0x80] (-4)).reads = 7 := by decide +kernel
example : (Cost.replaceInvalidUtf8 [0xE0, 0x61, 0x62]).reads = 6 := by decide +kernel
example : (Cost.splitLines [] [0x0D, 0xC3, 0xA9] {}).reads = 5 := by decide +kernel
example : (Cost.findFirst [0x61, 0x61, 0x61, 0x61] [0x41, 0x41, 0x42]).reads = 15 := by decide +kernel
example : (Cost.trimWhere [0x20, 0x61, 0x62, 0x20] (· == 0x20)).reads = 4 := by decide +kernel

end Ystring
