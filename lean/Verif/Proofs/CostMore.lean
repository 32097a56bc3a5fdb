import Verif.Model.CostMore
import Verif.Proofs.CostBound2
/-
The functions of Model/CostMore.lean without their counters.
-/
namespace Ystring.Cost

theorem val_findLastNewline (mem : List Char32) (str : Str) (offset : Nat) :
    (findLastNewline mem str offset).val = Ystring.findLastNewline mem str offset := by
  simp only [findLastNewline, Ystring.findLastNewline, Ystring.findLastOf, val_bind, val_findLastWhere, apply_ite Counted.val, val_lift,
    val_safeDecodePrev]
  apply bind_congr'; rintro ⟨s, c⟩
  simp only
  split
  · rfl
  · apply bind_congr'; intro it
    apply bind_congr'; intro x
    rcases x with _ | ⟨_, _⟩
    · rfl
    · simp only [apply_ite Counted.val, val_lift]

theorem val_getCharRange (str : Str) (pos : Int) : (getCharRange str pos).val = Ystring.getCharRange str pos := by
  simp only [getCharRange, Ystring.getCharRange, apply_ite Counted.val, val_bind, val_getCharPos, val_lift, val_getNextCharRange,
    val_getPrevCharRange]

theorem val_getCodepoint (str : Str) (pos : Int) : (getCodepoint str pos).val = Ystring.getCodepoint str pos := by
  simp only [getCodepoint, Ystring.getCodepoint, apply_ite Counted.val, val_bind, val_skipNextN, val_skipPrevN, val_safeDecodeNext,
    val_safeDecodePrev, res_bind_ok]
  split
  · apply bind_congr'; intro x
    rcases x with _ | ⟨_, _⟩ <;> rfl
  · apply bind_congr'; rintro ⟨_, next⟩
    apply bind_congr'; intro x
    rcases x with _ | ⟨_, _⟩ <;> rfl

theorem val_getCappedCharPos (str : Str) (pos : Int) : (getCappedCharPos str pos).val = Ystring.getCappedCharPos str pos := by
  simp only [getCappedCharPos, Ystring.getCappedCharPos, val_bind, val_getCharPos, apply_ite Counted.val, val_lift]

theorem val_getCappedCodepointPos (str : Str) (pos : Int) :
    (getCappedCodepointPos str pos).val = Ystring.getCappedCodepointPos str pos := by
  simp only [getCappedCodepointPos, Ystring.getCappedCodepointPos, val_bind, val_getCodepointPos, apply_ite Counted.val, val_lift]

theorem val_getCharSubstringRange (str : Str) (i j : Int) :
    (getCharSubstringRange str i j).val = Ystring.getCharSubstringRange str i j := by
  simp only [getCharSubstringRange, Ystring.getCharSubstringRange, val_bind, val_getCappedCharPos, apply_ite Counted.val, val_lift]

theorem val_getCodepointSubstringRange (str : Str) (i j : Int) :
    (getCodepointSubstringRange str i j).val = Ystring.getCodepointSubstringRange str i j := by
  simp only [getCodepointSubstringRange, Ystring.getCodepointSubstringRange, val_bind, val_getCappedCodepointPos, apply_ite Counted.val,
    val_lift]

theorem val_mismatchEnds (str cmp : Str) : (mismatchEnds str cmp).val = .ok (cmp.isPrefixOf str) := by
  induction cmp generalizing str with
  | nil => cases str <;> rfl
  | cons b cmp ih =>
    cases str with
    | nil => rfl
    | cons a str =>
      simp only [mismatchEnds, val_bind, val_read, res_bind_ok, apply_ite Counted.val, val_lift, ih, List.isPrefixOf]
      by_cases h : a = b
      · simp [h]
      · have : (b == a) = false := by simpa using fun e => h e.symm
        simp [h, this]

theorem val_searchLastLoop (str cmp : Str) (it : Nat) :
    (searchLastLoop str cmp it).val = .ok (Ystring.searchLastLoop str cmp it) := by
  induction it with
  | zero =>
    simp only [searchLastLoop, Ystring.searchLastLoop, val_bind, val_mismatchEnds, res_bind_ok, apply_ite Counted.val, val_lift]
    split <;> rfl
  | succ it ih =>
    simp only [searchLastLoop, Ystring.searchLastLoop, val_bind, val_mismatchEnds, res_bind_ok, apply_ite Counted.val, val_lift, ih]
    split <;> rfl

theorem val_searchLast (str cmp : Str) : (searchLast str cmp).val = .ok (Ystring.searchLast str cmp) := by
  simp only [searchLast, Ystring.searchLast, apply_ite Counted.val, val_lift, val_searchLastLoop]
  split <;> rfl

theorem val_findLastBytes (str cmp : Str) (offset : Nat) :
    (findLastBytes str cmp offset).val = .ok (Ystring.findLast str cmp offset) := by
  simp only [findLastBytes, Ystring.findLast, val_bind, val_searchLast, res_bind_ok, val_lift]

theorem val_findLastNLoop (str cmp : Str) (fuel : Nat) (it maxCount : Nat) (result : List Subrange) :
    (findLastNLoop str cmp fuel it maxCount result).val = Ystring.findLastNLoop str cmp fuel it maxCount result := by
  induction fuel generalizing it maxCount result with
  | zero => rfl
  | succ fuel ih =>
    simp only [findLastNLoop, Ystring.findLastNLoop, val_bind, val_searchLast, res_bind_ok, apply_ite Counted.val, val_lift, ih]

theorem val_replaceFromRight (str «from» to : Str) (k : Int) (hk : k < 0) :
    (replaceFromRight str «from» to k).val = Ystring.replace str «from» to k := by
  unfold Ystring.replace
  rw [if_neg (by omega)]
  simp only [replaceFromRight, findLastN, apply_ite Counted.val, val_bind, val_findLastNLoop, val_lift]

theorem val_replaceFwdLoop («from» to : Str) (n : Nat) (str result : Str) :
    (replaceFwdLoop «from» to n str result).val = CI.replaceFwdLoop «from» to n str result := by
  induction n generalizing str result with
  | zero => rfl
  | succ n ih => simp only [replaceFwdLoop, CI.replaceFwdLoop, val_bind, val_findFirst, apply_ite Counted.val, val_lift, ih]

theorem val_replaceMatches («from» : Str) (n : Nat) (str : Str) (ms : List Subrange) :
    (replaceMatches «from» n str ms).val = CI.replaceMatches «from» n str ms := by
  induction n generalizing str ms with
  | zero => rfl
  | succ n ih => simp only [replaceMatches, CI.replaceMatches, val_bind, val_findLast, apply_ite Counted.val, val_lift, ih]

theorem val_replace (str «from» to : Str) (k : Int) : (replace str «from» to k).val = CI.replace str «from» to k := by
  simp only [replace, CI.replace, apply_ite Counted.val, val_bind, val_replaceFwdLoop, val_replaceMatches, val_lift]

theorem val_split (str sep : Str) (params : SplitParams) : (split str sep params).val = CI.split str sep params := by
  simp only [split, CI.split, val_splitWhere, val_findFirst]

theorem val_toDecomposedLoop (g fuel : Nat) (buffer : List Char32) (result «from» it to : Str) :
    (toDecomposedLoop g fuel buffer result «from» it to).val = Ystring.toDecomposedLoop g fuel buffer result «from» it to := by
  induction fuel generalizing buffer result «from» it to with
  | zero => rfl
  | succ fuel ih =>
    simp only [toDecomposedLoop, Ystring.toDecomposedLoop, val_bind, val_safeDecodeNext]
    apply bind_congr'; intro x
    rcases x with _ | ⟨_, _⟩
    · rfl
    · simp only [val_bind, val_lift, apply_ite Counted.val, ih]

theorem val_toDecomposed (str : Str) (g : Nat) : (toDecomposed str g).val = Ystring.toDecomposed str g := by
  simp only [toDecomposed, Ystring.toDecomposed, val_bind, val_toDecomposedLoop, val_lift]

theorem val_composeRun (fuel : Nat) (ch mark : Char32) (it : Str) :
    (composeRun fuel ch mark it).val = Ystring.composeRun fuel ch mark it := by
  induction fuel generalizing ch mark it with
  | zero => rfl
  | succ fuel ih =>
    simp only [composeRun, Ystring.composeRun, val_bind, val_safeDecodeNext]
    apply bind_congr'; intro x
    rcases x with _ | ⟨_, _⟩
    · rfl
    · simp only [val_bind, val_lift, apply_ite Counted.val, ih]

theorem val_toComposedLoop (g fuel : Nat) (ch : Char32) (result «from» it to prev : Str) :
    (toComposedLoop g fuel ch result «from» it to prev).val = Ystring.toComposedLoop g fuel ch result «from» it to prev := by
  induction fuel generalizing ch result «from» it to prev with
  | zero => rfl
  | succ fuel ih =>
    simp only [toComposedLoop, Ystring.toComposedLoop, val_bind, val_safeDecodeNext]
    apply bind_congr'; intro x
    rcases x with _ | ⟨_, _⟩
    · rfl
    · simp only [val_bind, val_lift, apply_ite Counted.val, val_composeRun, ih]

theorem val_toComposed (str : Str) : (toComposed str).val = Ystring.toComposed str := by
  simp only [toComposed, Ystring.toComposed, val_bind, val_safeDecodeNext]
  apply bind_congr'; intro x
  rcases x with _ | ⟨_, _⟩
  · rfl
  · simp only [val_bind, val_lift, val_toComposedLoop]

theorem val_findEscapable (s : Str) : (findEscapable s).val = .ok (stdFindIf isEscapable s) := by
  induction s with
  | nil => rfl
  | cons b s ih =>
    simp only [findEscapable, stdFindIf, val_bind, val_read, res_bind_ok, apply_ite Counted.val, val_lift, ih]
    split <;> rfl

theorem val_findFirstEscapableChar (s : Str) (o : Nat) :
    (findFirstEscapableChar s o).val = Ystring.findFirstEscapableChar s o := by
  simp only [findFirstEscapableChar, Ystring.findFirstEscapableChar, apply_ite Counted.val, val_bind, val_findEscapable, res_bind_ok, val_lift]

theorem val_escapeJsonLoop (str : Str) (fuel o : Nat) (result : Str) :
    (escapeJsonLoop str fuel o result).val = Ystring.escapeJsonLoop str fuel o result := by
  induction fuel generalizing o result with
  | zero => rfl
  | succ fuel ih =>
    simp only [escapeJsonLoop, Ystring.escapeJsonLoop, val_bind, val_findFirstEscapableChar]
    apply bind_congr'; intro sub
    simp only [apply_ite Counted.val, val_lift]
    split
    · cases str[sub.offset]? with
      | none => rfl
      | some c => simp only [val_bind, val_read, res_bind_ok, ih]
    · rfl

end Ystring.Cost
