import Verif.Spec.Text
/-
The words of the specification (Spec/Text.lean) and the functions of the model.
-/
namespace Ystring.Spec
open Ystring.Gen

@[simp] theorem blankChar_eq (c : Char) : blankChar c = isSpace c := by
  unfold blankChar isSpace
  rw [Bool.eq_iff_iff]
  simp only [List.mem_cons, List.not_mem_nil, or_false, decide_eq_true_eq, Bool.or_eq_true, Bool.and_eq_true]
  omega

@[simp] theorem blankText_eq (s : Txt) : blankText s = isEmptyOrSpace s := by
  unfold blankText isEmptyOrSpace
  congr 1
  exact funext blankChar_eq

@[simp] theorem cutBlanks_eq (s : Txt) : cutBlanks s = rstrip s := by
  induction s with
  | nil => rfl
  | cons c cs ih =>
    rw [cutBlanks, blankText_eq, ih]
    unfold rstrip isEmptyOrSpace
    have hd : ∀ l : Txt, l.dropWhile isSpace = [] ↔ l.all isSpace = true := by
      intro l; induction l with
      | nil => simp
      | cons a l ih => cases h : isSpace a <;> simp [h, ih]
    rw [List.reverse_cons, List.dropWhile_append]
    by_cases h : cs.all isSpace = true
    · have h0 : cs.reverse.dropWhile isSpace = [] := (hd _).2 (by rw [List.all_reverse]; exact h)
      rw [h0]
      cases hc : isSpace c <;> simp [hc] <;> simpa using h
    · have h0 : cs.reverse.dropWhile isSpace ≠ [] := fun e => h (by rw [← List.all_reverse]; exact (hd _).1 e)
      rw [if_neg (by rw [List.all_cons, Bool.and_eq_true]; exact fun e => h e.2)]
      simp [List.isEmpty_iff, h0]

@[simp] theorem joinedBy_eq (sep : Txt) (ls : List Txt) : joinedBy sep ls = joinTxt sep ls := by
  unfold joinedBy
  induction ls with
  | nil => rfl
  | cons l ls ih =>
    cases ls with
    | nil => simp [joinTxt]
    | cons m ls => simp only [List.intersperse, List.flatten_cons, joinTxt] at ih ⊢; rw [ih]; simp

@[simp] theorem decimal_eq (n : Int) : decimal n = intText n := by
  unfold decimal intText
  cases n with
  | ofNat n =>
    have : ¬ ((Int.ofNat n) < 0) := by simp
    rw [if_neg this]
    simp [toString, Int.repr, Nat.repr]
  | negSucc n => simp [toString, Int.repr, Nat.repr, Int.negSucc_lt_zero]

@[simp] theorem isTrue_eq (v : Val) : isTrue v = v.truthy := by
  cases v <;> simp [isTrue, falseValues, Val.truthy]

end Ystring.Spec
