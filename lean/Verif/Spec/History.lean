import Verif.Model.Algorithms
import Verif.Model.CaseInsensitive
import Verif.Model.Escape
import Verif.Model.Unescape
import Verif.Model.Normalize
import Verif.Spec.Escape
/-
The strings a program can get hold of by calling the library any number of times, in any order, on strings it already
has. Used by property C80.
-/
namespace Ystring.Spec

/-- A finder for `split_where` that reports only ranges of whole code points of valid strings. -/
def WholeRanges (finder : Str → Res Subrange) : Prop :=
  ∀ s r, Valid s → Fits s → finder s = .ok r → r.length = 0 ∨
    ∃ p t rest, s = p ++ t ++ rest ∧ Valid p ∧ Valid t ∧ r = ⟨p.length, t.length⟩

/-- `Derived init cp more s`: `s` can be computed from strings satisfying `init` and code points satisfying `cp` by
finitely many calls of functions of the library. `Fits` holds for every string in memory. `more` says whether calls of
`unescape`, `to_composed` and `to_decomposed` are included (they can make code points of their own).

Restricted, because of the errors described by `C80_false`: substrings and replacements by character (code point)
positions are included unless the start counts from the beginning and the end from the end (the other way round),
and by code point positions other than the smallest `ptrdiff_t` (C27, C29). -/
inductive Derived (init : Str → Prop) (cp : Char32 → Prop) (more : Prop) : Str → Prop
  | input {s : Str} : init s → Derived init cp more s
  | concat {s t : Str} : Derived init cp more s → Derived init cp more t → Derived init cp more (s ++ t)
  | append {s r : Str} {c : Char32} : Derived init cp more s → cp c → append s c = .ok r → Derived init cp more r
  | fromUtf32 {x : List Char32} : (∀ c ∈ x, cp c) → Derived init cp more (fromUtf32 x)
  | codepointSubstring {s r : Str} {i j : Int} : Derived init cp more s → Fits s → 0 ≤ i ∨ j < 0 →
      PTRDIFF_MIN < i → PTRDIFF_MIN < j → getCodepointSubstring s i j = .ok r → Derived init cp more r
  | charSubstring {s r : Str} {i j : Int} : Derived init cp more s → Fits s → i < 0 ∨ 0 ≤ j →
      getCharSubstring s i j = .ok r → Derived init cp more r
  | insertCodepoint {s r : Str} {k : Int} {c : Char32} : Derived init cp more s → Fits s → k ≠ PTRDIFF_MIN → cp c →
      insertCodepoint s k c = .ok r → Derived init cp more r
  | insertChar {s r : Str} {k : Int} {c : Char32} : Derived init cp more s → Fits s → cp c →
      insertChar s k c = .ok r → Derived init cp more r
  | insertCodepoints {s t r : Str} {k : Int} : Derived init cp more s → Fits s → k ≠ PTRDIFF_MIN →
      Derived init cp more t → insertCodepoints s k t = .ok r → Derived init cp more r
  | insertChars {s t r : Str} {k : Int} : Derived init cp more s → Fits s → Derived init cp more t →
      insertChars s k t = .ok r → Derived init cp more r
  | replaceCodepoints {s t r : Str} {i j : Int} : Derived init cp more s → Fits s → 0 ≤ i ∨ j < 0 →
      PTRDIFF_MIN < i → PTRDIFF_MIN < j → Derived init cp more t → replaceCodepoints s i j t = .ok r → Derived init cp more r
  | replaceChars {s t r : Str} {i j : Int} : Derived init cp more s → Fits s → i < 0 ∨ 0 ≤ j →
      Derived init cp more t → replaceChars s i j t = .ok r → Derived init cp more r
  | replace {s f t r : Str} {n : Int} : PTRDIFF_MIN ≤ n → Derived init cp more s → Fits s → Derived init cp more f →
      Derived init cp more t → replace s f t n = .ok r → Derived init cp more r
  | replaceCodepoint {s r : Str} {a b : Char32} {n : Int} : PTRDIFF_MIN ≤ n → Derived init cp more s → Fits s →
      cp b → replaceCodepoint s a b n = .ok r → Derived init cp more r
  | ciReplace {s f t r : Str} {n : Int} : Derived init cp more s → Fits s → Derived init cp more f →
      Derived init cp more t → CI.replace s f t n = .ok r → Derived init cp more r
  | reverse {s r : Str} : Derived init cp more s → Fits s → reverse s = .ok r → Derived init cp more r
  | trimStartWhere {s r : Str} {p : Char32 → Bool} : Derived init cp more s → Fits s → trimStartWhere s p = .ok r →
      Derived init cp more r
  | trimEndWhere {s r : Str} {p : Char32 → Bool} : Derived init cp more s → Fits s → trimEndWhere s p = .ok r →
      Derived init cp more r
  | trimWhere {s r : Str} {p : Char32 → Bool} : Derived init cp more s → Fits s → trimWhere s p = .ok r →
      Derived init cp more r
  | trimStart {s r : Str} {l : List Char32} : Derived init cp more s → Fits s → trimStart s l = .ok r →
      Derived init cp more r
  | trimEnd {s r : Str} {l : List Char32} : Derived init cp more s → Fits s → trimEnd s l = .ok r →
      Derived init cp more r
  | trim {s r : Str} {l : List Char32} : Derived init cp more s → Fits s → trim s l = .ok r → Derived init cp more r
  | trimDefault {s r : Str} {mem : List Char32} : Derived init cp more s → Fits s → trimDefault mem s = .ok r →
      Derived init cp more r
  | toUpper {s r : Str} : Derived init cp more s → toUpper s = .ok r → Derived init cp more r
  | toLower {s r : Str} : Derived init cp more s → toLower s = .ok r → Derived init cp more r
  | toTitle {s r : Str} : Derived init cp more s → toTitle s = .ok r → Derived init cp more r
  | splitWhere {s p : Str} {ps : List Str} {finder : Str → Res Subrange} {params : SplitParams} :
      Derived init cp more s → Fits s → WholeRanges finder → splitWhere s finder params = .ok ps → p ∈ ps →
      Derived init cp more p
  | split {s sep p : Str} {ps : List Str} {params : SplitParams} : Derived init cp more s → Fits s →
      Derived init cp more sep → split s sep params = .ok ps → p ∈ ps → Derived init cp more p
  | splitChars {s p : Str} {ps : List Str} {l : List Char32} {params : SplitParams} : Derived init cp more s → Fits s →
      splitChars s l params = .ok ps → p ∈ ps → Derived init cp more p
  | splitLines {s p : Str} {ps : List Str} {mem : List Char32} {params : SplitParams} : Derived init cp more s →
      Fits s → splitLines mem s params = .ok ps → p ∈ ps → Derived init cp more p
  | ciSplit {s sep p : Str} {ps : List Str} {params : SplitParams} : Derived init cp more s → Fits s →
      Derived init cp more sep → CI.split s sep params = .ok ps → p ∈ ps → Derived init cp more p
  | ciSplitChars {s p : Str} {ps : List Str} {l : List Char32} {params : SplitParams} : Derived init cp more s →
      Fits s → CI.splitChars s l params = .ok ps → p ∈ ps → Derived init cp more p
  | join {ps : List Str} {sep : Str} : (∀ p ∈ ps, Derived init cp more p) → Derived init cp more sep →
      Derived init cp more (join ps sep)
  | escapeJson {s r : Str} : Derived init cp more s → Fits s → escapeJson s = .ok r → Derived init cp more r
  | pop {s r : Str} {c : Option Char32} : Derived init cp more s → popUtf8Codepoint s = .ok (c, r) →
      Derived init cp more r
  | popLast {s r : Str} {c : Option Char32} : Derived init cp more s → popLastUtf8Codepoint s = .ok (c, r) →
      Derived init cp more r
  | remove {s r : Str} {b : Bool} : Derived init cp more s → removeUtf8Codepoint s = (b, r) → Derived init cp more r
  | removeLast {s r : Str} {b : Bool} : Derived init cp more s → removeLastUtf8Codepoint s = .ok (b, r) →
      Derived init cp more r
  | replaceInvalid {s r : Str} {c : Char32} : Derived init cp more s → replaceInvalidUtf8 s c = .ok r →
      Derived init cp more r
  | unescape {s r : Str} : more → Derived init cp more s → Fits s → unescape s = .ok r → Derived init cp more r
  | toComposed {s r : Str} : more → Derived init cp more s → toComposed s = .ok r → Derived init cp more r
  | toDecomposed {s r : Str} {g : Nat} : more → Derived init cp more s → toDecomposed s (g + 1) = .ok r →
      Derived init cp more r

end Ystring.Spec
