import Verif.Model.Cost
/-
Lemmas for the counted models: forgetting the counter gives the other models.
-/
namespace Ystring.Cost

@[simp] theorem val_bind {α β : Type} (x : Counted α) (f : α → Counted β) :
    (x >>= f).val = (x.val >>= fun a => (f a).val) := by
  show (Counted.bind x f).val = _
  unfold Counted.bind
  cases x.val <;> rfl

@[simp] theorem val_pure {α : Type} (a : α) : (pure a : Counted α).val = .ok a := rfl
@[simp] theorem val_lift {α : Type} (r : Res α) : (lift r).val = r := rfl
@[simp] theorem val_read : read.val = .ok () := rfl

@[simp] theorem res_bind_ok {α β : Type} (a : α) (f : α → Res β) : ((Except.ok a : Res α) >>= f) = f a := rfl
@[simp] theorem res_bind_error {α β : Type} (e : Err) (f : α → Res β) :
    ((Except.error e : Res α) >>= f) = .error e := rfl

theorem val_decodeNextLoop (n i : Nat) (result : Char32) (passed it : Str) :
    (decodeNextLoop n i result passed it).val = Ystring.decodeNextLoop n i result passed it := by
  induction n generalizing i result passed it with
  | zero => simp [decodeNextLoop, Ystring.decodeNextLoop]
  | succ n ih =>
    cases it with
    | nil => simp [decodeNextLoop, Ystring.decodeNextLoop]
    | cons c it =>
      simp [decodeNextLoop, Ystring.decodeNextLoop, apply_ite Counted.val, ih]

theorem val_decodeNext (s : Str) : (decodeNext s).val = Ystring.decodeNext s := by
  cases s with
  | nil => rfl
  | cons b it =>
    simp [decodeNext, Ystring.decodeNext, decodeNextCont, apply_ite Counted.val, val_decodeNextLoop]

theorem val_decodePrevLoop (n : Nat) (result : Char32) (cur : UInt8) (passed rest : Str) :
    (decodePrevLoop n result cur passed rest).val = Ystring.decodePrevLoop n result cur passed rest := by
  induction rest generalizing n result cur passed with
  | nil => simp [decodePrevLoop, Ystring.decodePrevLoop, apply_ite Counted.val]
  | cons b rest ih =>
    unfold decodePrevLoop Ystring.decodePrevLoop
    simp [apply_ite Counted.val, ih]

theorem val_decodePrev (s : Str) : (decodePrev s).val = Ystring.decodePrev s := by
  cases s with
  | nil => rfl
  | cons b it =>
    simp [decodePrev, Ystring.decodePrev, apply_ite Counted.val, val_decodePrevLoop]

theorem val_skipCont (n : Nat) (s : Str) : (skipCont n s).val = .ok (Ystring.skipCont n s) := by
  induction s generalizing n with
  | nil => cases n <;> simp [skipCont, Ystring.skipCont]
  | cons b it ih =>
    cases n with
    | zero => simp [skipCont, Ystring.skipCont]
    | succ n =>
      simp only [skipCont, Ystring.skipCont, val_bind, val_read, res_bind_ok, apply_ite Counted.val, ih, val_lift,
        apply_ite (Except.ok (ε := Err))]

theorem val_skipNext (s : Str) : (skipNext s).val = .ok (Ystring.skipNext s) := by
  cases s with
  | nil => rfl
  | cons c it =>
    simp only [skipNext, Ystring.skipNext, val_bind, val_read, res_bind_ok, apply_ite Counted.val, val_skipCont, val_lift,
        apply_ite (Except.ok (ε := Err))]

theorem val_skipPrevLoop (n : Nat) (cur : UInt8) (passed rest : Str) :
    (skipPrevLoop n cur passed rest).val = Ystring.skipPrevLoop n cur passed rest := by
  induction rest generalizing n cur passed with
  | nil => simp [skipPrevLoop, Ystring.skipPrevLoop, apply_ite Counted.val]
  | cons b rest ih =>
    unfold skipPrevLoop Ystring.skipPrevLoop
    simp [apply_ite Counted.val, ih]

theorem val_skipPrev (s : Str) : (skipPrev s).val = Ystring.skipPrev s := by
  cases s with
  | nil => rfl
  | cons b it => simp [skipPrev, Ystring.skipPrev, val_skipPrevLoop]

theorem val_safeDecodeNext (s : Str) : (safeDecodeNext s).val = Ystring.safeDecodeNext s := by
  simp [safeDecodeNext, Ystring.safeDecodeNext, apply_ite Counted.val, val_decodeNext]

theorem val_safeDecodePrev (s : Str) : (safeDecodePrev s).val = Ystring.safeDecodePrev s := by
  simp [safeDecodePrev, Ystring.safeDecodePrev, apply_ite Counted.val, val_decodePrev]

/-- Two continuations that agree -/
theorem bind_congr' {α β : Type} (x : Res α) {f g : α → Res β} (h : ∀ a, f a = g a) : (x >>= f) = (x >>= g) := by
  rw [show f = g from funext h]

theorem val_containsLoop (chr : Char32) (fuel : Nat) (it : Str) :
    (containsLoop chr fuel it).val = Ystring.containsLoop chr fuel it := by
  induction fuel generalizing it with
  | zero => rfl
  | succ fuel ih =>
    simp only [containsLoop, Ystring.containsLoop, val_bind, val_safeDecodeNext]
    apply bind_congr'; intro a
    rcases a with _ | ⟨ch, it⟩ <;> simp [apply_ite Counted.val, ih]

theorem val_countCodepointsLoop (fuel : Nat) (it : Str) (result : Nat) :
    (countCodepointsLoop fuel it result).val = Ystring.countCodepointsLoop fuel it result := by
  induction fuel generalizing it result with
  | zero => rfl
  | succ fuel ih =>
    simp only [countCodepointsLoop, Ystring.countCodepointsLoop, val_bind, val_skipNext, res_bind_ok]
    rcases Ystring.skipNext it with ⟨b, it⟩
    cases b <;> simp [ih]

theorem val_isValidUtf8Loop (fuel : Nat) (it : Str) :
    (isValidUtf8Loop fuel it).val = Ystring.isValidUtf8Loop fuel it := by
  induction fuel generalizing it with
  | zero => rfl
  | succ fuel ih =>
    simp only [isValidUtf8Loop, Ystring.isValidUtf8Loop, val_bind, val_decodeNext, apply_ite Counted.val, val_lift]
    split
    · apply bind_congr'; intro a
      simp [ih]
    · rfl

theorem val_findFirstWhereLoop (str : Str) (pred : Char32 → Bool) (fuel : Nat) (it prev : Str) :
    (findFirstWhereLoop str pred fuel it prev).val = Ystring.findFirstWhereLoop str pred fuel it prev := by
  induction fuel generalizing it prev with
  | zero => rfl
  | succ fuel ih =>
    simp only [findFirstWhereLoop, Ystring.findFirstWhereLoop, val_bind, val_safeDecodeNext]
    apply bind_congr'; intro a
    rcases a with _ | ⟨ch, it⟩ <;> simp [apply_ite Counted.val, ih]

theorem val_findFirstWhere (str : Str) (pred : Char32 → Bool) (offset : Nat) :
    (findFirstWhere str pred offset).val = Ystring.findFirstWhere str pred offset := by
  simp only [findFirstWhere, Ystring.findFirstWhere, val_bind, val_lift, val_findFirstWhereLoop]

theorem val_findLastWhereLoop (pred : Char32 → Bool) (fuel : Nat) (it stop : Str) :
    (findLastWhereLoop pred fuel it stop).val = Ystring.findLastWhereLoop pred fuel it stop := by
  induction fuel generalizing it stop with
  | zero => rfl
  | succ fuel ih =>
    simp only [findLastWhereLoop, Ystring.findLastWhereLoop, val_bind, val_safeDecodePrev]
    apply bind_congr'; intro a
    rcases a with _ | ⟨ch, it⟩ <;> simp [apply_ite Counted.val, ih]

theorem val_findLastWhere (str : Str) (pred : Char32 → Bool) (offset : Nat) :
    (findLastWhere str pred offset).val = Ystring.findLastWhere str pred offset := by
  simp only [findLastWhere, Ystring.findLastWhere, val_findLastWhereLoop]

theorem val_findFirstNewline (mem : List Char32) (str : Str) (offset : Nat) :
    (findFirstNewline mem str offset).val = Ystring.findFirstNewline mem str offset := by
  simp only [findFirstNewline, Ystring.findFirstNewline, Ystring.findFirstOf, val_bind, val_findFirstWhere]
  apply bind_congr'; intro a
  simp only [apply_ite Counted.val, val_bind, val_lift, val_safeDecodeNext]
  split
  · rfl
  · apply bind_congr'; intro it
    apply bind_congr'; intro a
    rcases a with _ | ⟨ch, it⟩ <;> simp [apply_ite Counted.val]

theorem val_nextCharLoop (fuel : Nat) (it stop : Str) :
    (nextCharLoop fuel it stop).val = Ystring.nextCharLoop fuel it stop := by
  induction fuel generalizing it stop with
  | zero => rfl
  | succ fuel ih =>
    simp only [nextCharLoop, Ystring.nextCharLoop, val_bind, val_safeDecodeNext]
    apply bind_congr'; intro a
    rcases a with _ | ⟨ch, it⟩ <;> simp [apply_ite Counted.val, ih]

theorem val_getNextCharRange (str : Str) (offset : Nat) :
    (getNextCharRange str offset).val = Ystring.getNextCharRange str offset := by
  simp only [getNextCharRange, Ystring.getNextCharRange, val_bind, val_lift, val_safeDecodeNext]
  apply bind_congr'; intro it
  apply bind_congr'; intro a
  rcases a with _ | ⟨ch, it⟩ <;> simp [val_nextCharLoop]

theorem val_prevCharLoop (fuel : Nat) (it : Str) :
    (prevCharLoop fuel it).val = Ystring.prevCharLoop fuel it := by
  induction fuel generalizing it with
  | zero => rfl
  | succ fuel ih =>
    simp only [prevCharLoop, Ystring.prevCharLoop, val_bind, val_safeDecodePrev]
    apply bind_congr'; intro a
    rcases a with _ | ⟨ch, it⟩ <;> simp [apply_ite Counted.val, ih]

theorem val_getPrevCharRange (str : Str) (offset : Nat) :
    (getPrevCharRange str offset).val = Ystring.getPrevCharRange str offset := by
  simp only [getPrevCharRange, Ystring.getPrevCharRange, val_bind, val_lift, val_prevCharLoop]

theorem val_countCharsLoop (str : Str) (fuel offset count : Nat) :
    (countCharsLoop str fuel offset count).val = Ystring.countCharsLoop str fuel offset count := by
  induction fuel generalizing offset count with
  | zero => rfl
  | succ fuel ih =>
    simp only [countCharsLoop, Ystring.countCharsLoop, apply_ite Counted.val, val_bind, val_lift, val_getNextCharRange, ih]

theorem val_getCharPosFwd (str : Str) (pos offset : Nat) :
    (getCharPosFwd str pos offset).val = Ystring.getCharPosFwd str pos offset := by
  induction pos generalizing offset with
  | zero => rfl
  | succ pos ih =>
    simp only [getCharPosFwd, Ystring.getCharPosFwd, apply_ite Counted.val, val_bind, val_lift, val_getNextCharRange, ih]

theorem val_getCharPosBwd (str : Str) (pos offset : Nat) :
    (getCharPosBwd str pos offset).val = Ystring.getCharPosBwd str pos offset := by
  induction pos generalizing offset with
  | zero => rfl
  | succ pos ih =>
    simp only [getCharPosBwd, Ystring.getCharPosBwd, apply_ite Counted.val, val_bind, val_lift, val_getPrevCharRange, ih]

theorem val_getCharPos (str : Str) (pos : Int) : (getCharPos str pos).val = Ystring.getCharPos str pos := by
  simp only [getCharPos, Ystring.getCharPos, apply_ite Counted.val, val_getCharPosFwd, val_getCharPosBwd]

theorem val_skipNextN (pos : Nat) (it : Str) : (skipNextN pos it).val = .ok (Ystring.skipNextN pos it) := by
  induction pos generalizing it with
  | zero => rfl
  | succ pos ih =>
    simp only [skipNextN, Ystring.skipNextN, val_bind, val_skipNext, res_bind_ok]
    rcases Ystring.skipNext it with ⟨b, it⟩
    cases b <;> simp [ih]

theorem val_skipPrevN (pos : Nat) (it : Str) : (skipPrevN pos it).val = Ystring.skipPrevN pos it := by
  induction pos generalizing it with
  | zero => rfl
  | succ pos ih =>
    simp only [skipPrevN, Ystring.skipPrevN, val_bind, val_skipPrev]
    apply bind_congr'; intro a
    rcases a with ⟨b, it⟩
    cases b <;> simp [ih]

theorem val_getCodepointPos (str : Str) (pos : Int) : (getCodepointPos str pos).val = Ystring.getCodepointPos str pos := by
  simp only [getCodepointPos, Ystring.getCodepointPos, apply_ite Counted.val, val_lift, val_bind, val_skipNextN, val_skipPrevN,
    res_bind_ok]
  split
  · rfl
  split
  · rfl
  split
  · rcases Ystring.skipNextN pos.toNat str with ⟨n, it⟩
    cases n <;> rfl
  · apply bind_congr'; intro a
    rcases a with ⟨n, it⟩
    cases n <;> rfl

theorem val_replaceInvalidLoop (repl : Str) (fuel : Nat) (it prev result : Str) :
    (replaceInvalidLoop repl fuel it prev result).val = Ystring.replaceInvalidLoop repl fuel it prev result := by
  induction fuel generalizing it prev result with
  | zero => rfl
  | succ fuel ih =>
    simp only [replaceInvalidLoop, Ystring.replaceInvalidLoop, val_bind, val_decodeNext, apply_ite Counted.val, val_lift, ih,
      val_skipNext, res_bind_ok]

theorem val_reverseLoop (str : Str) (fuel offset : Nat) (result : Str) :
    (reverseLoop str fuel offset result).val = Ystring.reverseLoop str fuel offset result := by
  induction fuel generalizing offset result with
  | zero => rfl
  | succ fuel ih =>
    simp only [reverseLoop, Ystring.reverseLoop, apply_ite Counted.val, val_bind, val_lift, val_getPrevCharRange, ih]

theorem val_next (finder : Str → Counted Subrange) (t : TokenIterator) :
    (next finder t).val = TokenIterator.next (fun s => (finder s).val) t := by
  simp only [next, TokenIterator.next, apply_ite Counted.val, val_bind, val_lift]

theorem val_splitLoop (finder : Str → Counted Subrange) (params : SplitParams) (fuel : Nat) (it : TokenIterator)
    (result : List Str) :
    (splitLoop finder params fuel it result).val
      = Ystring.splitLoop (fun s => (finder s).val) params fuel it result := by
  induction fuel generalizing it result with
  | zero => rfl
  | succ fuel ih =>
    simp only [splitLoop, Ystring.splitLoop, apply_ite Counted.val, val_bind, val_lift, val_next, ih]

theorem val_splitWhere (str : Str) (finder : Str → Counted Subrange) (params : SplitParams) :
    (splitWhere str finder params).val = Ystring.splitWhere str (fun s => (finder s).val) params := by
  simp only [splitWhere, Ystring.splitWhere, apply_ite Counted.val, val_bind, val_lift, val_splitLoop]

theorem val_splitChars (str : Str) (chars : List Char32) (params : SplitParams) :
    (splitChars str chars params).val = Ystring.splitChars str chars params := by
  simp only [splitChars, Ystring.splitChars, Ystring.findFirstOf, val_splitWhere, val_bind, val_lift, val_findFirstWhere]

theorem val_splitLines (mem : List Char32) (str : Str) (params : SplitParams) :
    (splitLines mem str params).val = Ystring.splitLines mem str params := by
  simp only [splitLines, Ystring.splitLines, val_splitWhere, val_findFirstNewline]

theorem val_trimEndWhere (str : Str) (pred : Char32 → Bool) :
    (trimEndWhere str pred).val = Ystring.trimEndWhere str pred := by
  simp only [trimEndWhere, Ystring.trimEndWhere, val_bind, val_findLastWhere, apply_ite Counted.val, val_lift]

theorem val_trimStartWhere (str : Str) (pred : Char32 → Bool) :
    (trimStartWhere str pred).val = Ystring.trimStartWhere str pred := by
  simp only [trimStartWhere, Ystring.trimStartWhere, val_bind, val_findFirstWhere, apply_ite Counted.val, val_lift]

theorem val_trimWhere (str : Str) (pred : Char32 → Bool) :
    (trimWhere str pred).val = Ystring.trimWhere str pred := by
  simp only [trimWhere, Ystring.trimWhere, val_bind, val_trimEndWhere, val_trimStartWhere]

theorem val_toLowerLoop (fuel : Nat) (it result : Str) :
    (toLowerLoop fuel it result).val = Ystring.toLowerLoop fuel it result := by
  induction fuel generalizing it result with
  | zero => rfl
  | succ fuel ih =>
    simp only [toLowerLoop, Ystring.toLowerLoop, val_bind, val_safeDecodeNext]
    apply bind_congr'; intro a
    rcases a with _ | ⟨ch, it⟩ <;> simp only [val_bind, val_lift, ih]

theorem val_toTitleLoop (fuel : Nat) (it result : Str) (p : Bool) :
    (toTitleLoop fuel it result p).val = Ystring.toTitleLoop fuel it result p := by
  induction fuel generalizing it result p with
  | zero => rfl
  | succ fuel ih =>
    simp only [toTitleLoop, Ystring.toTitleLoop, val_bind, val_safeDecodeNext]
    apply bind_congr'; intro a
    rcases a with _ | ⟨ch, it⟩ <;> simp only [apply_ite Counted.val, val_bind, val_lift, ih]

theorem val_toUpperLoop (fuel : Nat) (it result : Str) :
    (toUpperLoop fuel it result).val = Ystring.toUpperLoop fuel it result := by
  induction fuel generalizing it result with
  | zero => rfl
  | succ fuel ih =>
    simp only [toUpperLoop, Ystring.toUpperLoop, val_bind, val_safeDecodeNext]
    apply bind_congr'; intro a
    rcases a with _ | ⟨ch, it⟩ <;> simp only [apply_ite Counted.val, val_bind, val_lift, ih]

theorem val_toUtf32Loop (fuel : Nat) (it : Str) (result : List Char32) :
    (toUtf32Loop fuel it result).val = Ystring.toUtf32Loop fuel it result := by
  induction fuel generalizing it result with
  | zero => rfl
  | succ fuel ih =>
    simp only [toUtf32Loop, Ystring.toUtf32Loop, val_bind, val_safeDecodeNext]
    apply bind_congr'; intro a
    rcases a with _ | ⟨ch, it⟩ <;> simp only [val_lift, ih]

theorem val_compareLoop (fuel : Nat) (a b : Str) : (compareLoop fuel a b).val = CI.compareLoop fuel a b := by
  induction fuel generalizing a b with
  | zero => rfl
  | succ fuel ih =>
    simp only [compareLoop, CI.compareLoop, val_bind, val_safeDecodeNext]
    apply bind_congr'; intro s
    apply bind_congr'; intro c
    rcases s with _ | ⟨_, _⟩ <;> rcases c with _ | ⟨_, _⟩ <;> simp only [apply_ite Counted.val, val_lift, ih]

theorem val_equalLoop (fuel : Nat) (a b : Str) : (equalLoop fuel a b).val = CI.equalLoop fuel a b := by
  induction fuel generalizing a b with
  | zero => rfl
  | succ fuel ih =>
    simp only [equalLoop, CI.equalLoop, val_bind, val_safeDecodeNext]
    apply bind_congr'; intro s
    apply bind_congr'; intro c
    rcases s with _ | ⟨_, _⟩ <;> rcases c with _ | ⟨_, _⟩ <;> simp only [apply_ite Counted.val, val_lift, ih]

theorem val_lessLoop (fuel : Nat) (a b : Str) : (lessLoop fuel a b).val = CI.lessLoop fuel a b := by
  induction fuel generalizing a b with
  | zero => rfl
  | succ fuel ih =>
    simp only [lessLoop, CI.lessLoop, val_bind, val_safeDecodeNext]
    apply bind_congr'; intro s
    apply bind_congr'; intro c
    rcases s with _ | ⟨_, _⟩ <;> rcases c with _ | ⟨_, _⟩ <;> simp only [apply_ite Counted.val, val_lift, ih]

theorem val_nextMismatch (fuel : Nat) (a b : Str) : (nextMismatch fuel a b).val = CI.nextMismatch fuel a b := by
  induction fuel generalizing a b with
  | zero => rfl
  | succ fuel ih =>
    simp only [nextMismatch, CI.nextMismatch, val_bind, val_safeDecodeNext]
    apply bind_congr'; intro s
    rcases s with _ | ⟨_, _⟩
    · rfl
    · simp only [val_bind, val_safeDecodeNext]
      apply bind_congr'; intro c
      rcases c with _ | ⟨_, _⟩ <;> simp only [apply_ite Counted.val, val_lift, ih]

theorem val_prevMismatch (fuel : Nat) (a b : Str) : (prevMismatch fuel a b).val = CI.prevMismatch fuel a b := by
  induction fuel generalizing a b with
  | zero => rfl
  | succ fuel ih =>
    simp only [prevMismatch, CI.prevMismatch, val_bind, val_safeDecodePrev]
    apply bind_congr'; intro s
    rcases s with _ | ⟨_, _⟩
    · rfl
    · simp only [val_bind, val_safeDecodePrev]
      apply bind_congr'; intro c
      rcases c with _ | ⟨_, _⟩ <;> simp only [apply_ite Counted.val, val_lift, ih]

theorem val_startsWith (str cmp : Str) : (startsWith str cmp).val = CI.startsWith str cmp := by
  simp only [startsWith, CI.startsWith, val_bind, val_nextMismatch, val_lift]

theorem val_endsWith (str cmp : Str) : (endsWith str cmp).val = CI.endsWith str cmp := by
  simp only [endsWith, CI.endsWith, val_bind, val_prevMismatch, val_lift]

theorem val_findFirstLoop (str : Str) (c : Char32) (itCmp : Str) (fuel : Nat) (it it' : Str) :
    (findFirstLoop str c itCmp fuel it it').val = CI.findFirstLoop str c itCmp fuel it it' := by
  induction fuel generalizing it it' with
  | zero => rfl
  | succ fuel ih =>
    simp only [findFirstLoop, CI.findFirstLoop, val_bind, val_safeDecodeNext]
    apply bind_congr'; intro s
    rcases s with _ | ⟨_, _⟩
    · rfl
    · simp only [apply_ite Counted.val, val_bind, val_nextMismatch, val_lift, ih]

theorem val_findFirst (str cmp : Str) (offset : Nat) : (findFirst str cmp offset).val = CI.findFirst str cmp offset := by
  simp only [findFirst, CI.findFirst, val_bind, val_safeDecodeNext]
  apply bind_congr'; intro s
  rcases s with _ | ⟨_, _⟩
  · rfl
  · simp only [val_bind, val_lift, val_findFirstLoop]

theorem val_findLastLoop (str : Str) (c : Char32) (itCmp : Str) (fuel : Nat) (it it' : Str) :
    (findLastLoop str c itCmp fuel it it').val = CI.findLastLoop str c itCmp fuel it it' := by
  induction fuel generalizing it it' with
  | zero => rfl
  | succ fuel ih =>
    simp only [findLastLoop, CI.findLastLoop, val_bind, val_safeDecodePrev]
    apply bind_congr'; intro s
    rcases s with _ | ⟨_, _⟩
    · rfl
    · simp only [apply_ite Counted.val, val_bind, val_prevMismatch, val_lift, ih]

theorem val_findLast (str cmp : Str) (offset : Nat) : (findLast str cmp offset).val = CI.findLast str cmp offset := by
  simp only [findLast, CI.findLast, val_bind, val_safeDecodePrev]
  apply bind_congr'; intro s
  rcases s with _ | ⟨_, _⟩
  · rfl
  · simp only [val_findLastLoop]

end Ystring.Cost
