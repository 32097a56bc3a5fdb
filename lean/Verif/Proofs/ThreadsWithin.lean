import Verif.Proofs.Threads
/- The accesses of every call are in its arguments and buffers. -/
namespace Ystring.Thr
open Ptr Spec

section
variable {R W : Nat → Prop} {r : Range} (hr : ∀ a, Mem' r a → R a)

local macro "walk" : tactic => `(tactic| repeat' (first
  | exact within_fin _ | exact within_ptr _ _ | exact within_back _ _ _ | exact within_load (by assumption) _
  | exact within_store (by assumption) _ _ | assumption
  | refine Within.bind ?_ fun _ => ?_ | split))

include hr

theorem within_decodeNextLoop (n i : Nat) (x : Char32) (it : Nat) : Within R W (decodeNextLoop r n i x it) := by
  induction n generalizing i x it with
  | zero => exact within_fin _
  | succ n ih =>
    unfold decodeNextLoop
    walk
    exact ih _ _ _

theorem within_decodeNextLead (it : Nat) (mask : UInt8) (n : Nat) : Within R W (decodeNextLead r it mask n) := by
  unfold decodeNextLead
  walk
  exact within_decodeNextLoop hr _ _ _ _

theorem within_decodeNext (it : Nat) : Within R W (decodeNext r it) := by
  unfold decodeNext
  walk <;> exact within_decodeNextLead hr _ _ _

theorem within_decodePrevLoop (fuel n : Nat) (x : Char32) (it : Nat) : Within R W (decodePrevLoop r fuel n x it) := by
  induction fuel generalizing n x it with
  | zero => exact within_fin _
  | succ n ih =>
    unfold decodePrevLoop
    walk
    exact ih _ _ _

theorem within_decodePrev (it : Nat) : Within R W (decodePrev r it) := by
  unfold decodePrev
  walk
  exact within_decodePrevLoop hr _ _ _ _

theorem within_skipNextLoop (fuel n it : Nat) : Within R W (skipNextLoop r fuel n it) := by
  induction fuel generalizing n it with
  | zero => exact within_fin _
  | succ n ih =>
    unfold skipNextLoop
    walk
    exact ih _ _

theorem within_skipNext (it : Nat) : Within R W (skipNext r it) := by
  unfold skipNext
  walk <;> exact within_skipNextLoop hr _ _ _

theorem within_safeDecodeNext (it : Nat) : Within R W (safeDecodeNext r it) := by
  unfold safeDecodeNext
  split
  · exact within_fin _
  · exact Within.bind (within_decodeNext hr _) fun _ => by dsimp only; split <;> exact within_fin _

theorem within_safeDecodePrev (it : Nat) : Within R W (safeDecodePrev r it) := by
  unfold safeDecodePrev
  split
  · exact within_fin _
  · exact Within.bind (within_decodePrev hr _) fun _ => by dsimp only; split <;> exact within_fin _

theorem within_toUtf32Loop (fuel it : Nat) (x : List Char32) : Within R W (toUtf32Loop r fuel it x) := by
  induction fuel generalizing it x with
  | zero => exact within_fin _
  | succ n ih =>
    unfold toUtf32Loop
    refine Within.bind (within_safeDecodeNext hr _) fun _ => ?_
    walk
    exact ih _ _

theorem within_containsLoop (c : Char32) (fuel it : Nat) : Within R W (containsLoop r c fuel it) := by
  induction fuel generalizing it with
  | zero => exact within_fin _
  | succ n ih =>
    unfold containsLoop
    refine Within.bind (within_safeDecodeNext hr _) fun _ => ?_
    walk
    exact ih _

theorem within_countCodepointsLoop (fuel it k : Nat) : Within R W (countCodepointsLoop r fuel it k) := by
  induction fuel generalizing it k with
  | zero => exact within_fin _
  | succ n ih =>
    unfold countCodepointsLoop
    refine Within.bind (within_skipNext hr _) fun _ => ?_
    walk
    exact ih _ _

theorem within_isValidUtf8Loop (fuel it : Nat) : Within R W (isValidUtf8Loop r fuel it) := by
  induction fuel generalizing it with
  | zero => exact within_fin _
  | succ n ih =>
    unfold isValidUtf8Loop
    split
    · refine Within.bind (within_decodeNext hr _) fun _ => ?_
      walk
      exact ih _
    · exact within_fin _

theorem within_findFirstWhereLoop (pred : Char32 → Bool) (fuel it prev : Nat) : Within R W (findFirstWhereLoop r pred fuel it prev) := by
  induction fuel generalizing it prev with
  | zero => exact within_fin _
  | succ n ih =>
    unfold findFirstWhereLoop
    refine Within.bind (within_safeDecodeNext hr _) fun _ => ?_
    walk
    exact ih _ _

theorem within_findLastWhereLoop (pred : Char32 → Bool) (fuel it stop : Nat) : Within R W (findLastWhereLoop r pred fuel it stop) := by
  induction fuel generalizing it stop with
  | zero => exact within_fin _
  | succ n ih =>
    unfold findLastWhereLoop
    refine Within.bind (within_safeDecodePrev hr _) fun _ => ?_
    walk
    exact ih _ _

theorem within_toLowerLoop (fuel it : Nat) (x : Str) : Within R W (toLowerLoop r fuel it x) := by
  induction fuel generalizing it x with
  | zero => exact within_fin _
  | succ n ih =>
    unfold toLowerLoop
    refine Within.bind (within_safeDecodeNext hr _) fun _ => ?_
    walk
    exact ih _ _

theorem within_toUpperLoop (fuel it : Nat) (x : Str) : Within R W (toUpperLoop r fuel it x) := by
  induction fuel generalizing it x with
  | zero => exact within_fin _
  | succ n ih =>
    unfold toUpperLoop
    refine Within.bind (within_safeDecodeNext hr _) fun _ => ?_
    walk
    · exact ih _ _
    · exact ih _ _

theorem within_compareLoop {r' : Range} (hr' : ∀ a, Mem' r' a → R a) (fuel it it' : Nat) : Within R W (compareLoop r r' fuel it it') := by
  induction fuel generalizing it it' with
  | zero => exact within_fin _
  | succ n ih =>
    unfold compareLoop
    refine Within.bind (within_safeDecodeNext hr _) fun _ => Within.bind (within_safeDecodeNext hr' _) fun _ => ?_
    walk
    dsimp only
    split
    · exact within_fin _
    · exact ih _ _

theorem within_scan (pred : UInt8 → Bool) (k i : Nat) : Within R W (scan r pred k i) := by
  induction k generalizing i with
  | zero => exact within_fin _
  | succ n ih =>
    unfold scan
    walk
    exact ih _

theorem within_findFirstByteWhere (s e : Nat) (pred : UInt8 → Bool) : Within R W (findFirstByteWhere r s e pred) := by
  unfold findFirstByteWhere
  refine Within.bind (within_scan hr _ _ _) fun _ => ?_
  walk

theorem within_findFirstEscapedChar (o : Nat) : Within R W (findFirstEscapedChar r o) := by
  unfold findFirstEscapedChar
  refine Within.bind (within_ptr _ _) fun _ => Within.bind (within_scan hr _ _ _) fun _ => ?_
  walk <;> exact within_scan hr _ _ _

theorem within_digits (base k a n v : Nat) : Within R W (digits r base k a n v) := by
  induction k generalizing a n v with
  | zero => exact within_fin _
  | succ n ih =>
    unfold digits
    walk
    exact ih _ _ _

theorem within_parseEscaped (skip base : Nat) : Within R W (parseEscaped skip base r) := by
  unfold parseEscaped
  refine Within.bind (within_ptr _ _) fun _ => Within.bind (within_digits hr _ _ _ _ _) fun _ => ?_
  walk

/-- a part of a range is in the range -/
theorem within_subRange (pos n : Nat) (f : Range → Prog α) (hf : ∀ r', (∀ a, Mem' r' a → R a) → Within R W (f r')) :
    Within R W (subRange r pos n >>= f) := by
  unfold subRange
  split
  · exact .done _
  · refine hf _ fun a ha => hr a ?_
    simp only [Mem'] at ha ⊢
    omega

theorem within_parseUtf16 (sub : Subrange) : Within R W (parseUtf16 r sub) := by
  unfold parseUtf16
  refine within_subRange hr _ _ _ fun r1 h1 => Within.bind (within_parseEscaped h1 _ _) fun _ => ?_
  split
  · exact within_fin _
  · refine within_subRange hr _ _ _ fun r2 h2 => Within.bind (within_findFirstEscapedChar h2 _) fun _ => ?_
    split
    · exact within_fin _
    refine Within.bind (within_load hr _) fun _ => ?_
    split
    · exact within_fin _
    refine Within.bind (within_parseEscaped h2 _ _) fun _ => ?_
    walk

theorem within_decodeEscaped (sub : Subrange) : Within R W (decodeEscaped r sub) := by
  unfold decodeEscaped
  refine Within.bind (within_load hr _) fun _ => ?_
  split
  · exact within_subRange hr _ _ _ fun r1 h1 => Within.bind (within_parseEscaped h1 _ _) fun _ => within_fin _
  split
  · exact within_parseUtf16 hr _
  repeat' (first | exact within_fin _ | split)
  refine Within.bind (within_load hr _) fun _ => ?_
  split
  · exact within_subRange hr _ _ _ fun r1 h1 => Within.bind (within_parseEscaped h1 _ _) fun _ => within_fin _
  · exact Within.bind (within_load hr _) fun _ => within_fin _

theorem within_skipPrevLoop (fuel n it : Nat) : Within R W (skipPrevLoop r fuel n it) := by
  induction fuel generalizing n it with
  | zero => exact within_fin _
  | succ n ih =>
    unfold skipPrevLoop
    refine Within.bind (within_back _ _ _) fun _ => Within.bind (within_load hr _) fun _ => ?_
    split
    · split
      · exact within_fin _
      · exact ih _ _
    · refine Within.bind (within_load hr _) fun b => ?_
      generalize (if b &&& 0x80 = 0 then 1
        else if b &&& 0xE0 = 0xC0 then 2
        else if b &&& 0xF0 = 0xE0 then 3
        else if b &&& 0xF8 = 0xF0 then 4
        else 4294967295) = k
      dsimp only
      walk

theorem within_skipPrev (it : Nat) : Within R W (skipPrev r it) := by
  unfold skipPrev
  split
  · exact within_fin _
  · exact within_skipPrevLoop hr _ _ _

theorem within_toTitleLoop (fuel it : Nat) (x : Str) (p : Bool) : Within R W (toTitleLoop r fuel it x p) := by
  induction fuel generalizing it x p with
  | zero => exact within_fin _
  | succ n ih =>
    unfold toTitleLoop
    refine Within.bind (within_safeDecodeNext hr _) fun _ => ?_
    walk <;> exact ih _ _ _

theorem within_equalLoop {r' : Range} (hr' : ∀ a, Mem' r' a → R a) (fuel it it' : Nat) : Within R W (equalLoop r r' fuel it it') := by
  induction fuel generalizing it it' with
  | zero => exact within_fin _
  | succ n ih =>
    unfold equalLoop
    refine Within.bind (within_safeDecodeNext hr _) fun _ => Within.bind (within_safeDecodeNext hr' _) fun _ => ?_
    walk
    exact ih _ _

theorem within_lessLoop {r' : Range} (hr' : ∀ a, Mem' r' a → R a) (fuel it it' : Nat) : Within R W (lessLoop r r' fuel it it') := by
  induction fuel generalizing it it' with
  | zero => exact within_fin _
  | succ n ih =>
    unfold lessLoop
    refine Within.bind (within_safeDecodeNext hr _) fun _ => Within.bind (within_safeDecodeNext hr' _) fun _ => ?_
    walk
    dsimp only
    split
    · exact within_fin _
    · exact ih _ _

theorem within_nextMismatch {r' : Range} (hr' : ∀ a, Mem' r' a → R a) (fuel it it' : Nat) : Within R W (nextMismatch r r' fuel it it') := by
  induction fuel generalizing it it' with
  | zero => exact within_fin _
  | succ n ih =>
    unfold nextMismatch
    refine Within.bind (within_safeDecodeNext hr _) fun _ => ?_
    split
    · exact within_fin _
    · refine Within.bind (within_safeDecodeNext hr' _) fun _ => ?_
      walk
      exact ih _ _

theorem within_prevMismatch {r' : Range} (hr' : ∀ a, Mem' r' a → R a) (fuel it it' : Nat) : Within R W (prevMismatch r r' fuel it it') := by
  induction fuel generalizing it it' with
  | zero => exact within_fin _
  | succ n ih =>
    unfold prevMismatch
    refine Within.bind (within_safeDecodePrev hr _) fun _ => ?_
    split
    · exact within_fin _
    · refine Within.bind (within_safeDecodePrev hr' _) fun _ => ?_
      walk
      exact ih _ _

theorem within_findFirst {r' : Range} (hr' : ∀ a, Mem' r' a → R a) (o : Nat) : Within R W (findFirst r r' o) := by
  have loop : ∀ c i fuel it it', Within R W (findFirstLoop r r' c i fuel it it') := by
    intro c i fuel
    induction fuel with
    | zero => exact fun _ _ => within_fin _
    | succ n ih =>
      intro it it'
      unfold findFirstLoop
      refine Within.bind (within_safeDecodeNext hr _) fun _ => ?_
      split
      · exact within_fin _
      split
      · refine Within.bind (within_nextMismatch hr hr' _ _ _) fun _ => ?_
        walk
        exact ih _ _
      · exact ih _ _
  unfold findFirst
  refine Within.bind (within_safeDecodeNext hr' _) fun _ => ?_
  split
  · exact within_fin _
  · exact Within.bind (within_ptr _ _) fun _ => loop _ _ _ _ _

theorem within_findLast {r' : Range} (hr' : ∀ a, Mem' r' a → R a) (o : Nat) : Within R W (findLast r r' o) := by
  have loop : ∀ c i fuel it it', Within R W (findLastLoop r r' c i fuel it it') := by
    intro c i fuel
    induction fuel with
    | zero => exact fun _ _ => within_fin _
    | succ n ih =>
      intro it it'
      unfold findLastLoop
      refine Within.bind (within_safeDecodePrev hr _) fun _ => ?_
      split
      · exact within_fin _
      split
      · refine Within.bind (within_prevMismatch hr hr' _ _ _) fun _ => ?_
        walk
        exact ih _ _
      · exact ih _ _
  unfold findLast
  refine Within.bind (within_safeDecodePrev hr' _) fun _ => ?_
  split
  · exact within_fin _
  · exact Within.bind (within_ptr _ _) fun _ => loop _ _ _ _ _

theorem within_copyOut (k a : Nat) (x : Str) : Within R W (copyOut r k a x) := by
  induction k generalizing a x with
  | zero => exact within_fin _
  | succ n ih =>
    unfold copyOut
    walk
    exact ih _ _

theorem within_replaceInvalidLoop (repl : Str) (fuel it prev : Nat) (x : Str) : Within R W (replaceInvalidLoop r repl fuel it prev x) := by
  induction fuel generalizing it prev x with
  | zero => exact within_fin _
  | succ n ih =>
    unfold replaceInvalidLoop
    split
    · refine Within.bind (within_decodeNext hr _) fun _ => ?_
      dsimp only
      split
      · exact ih _ _ _
      · exact Within.bind (within_copyOut hr _ _ _) fun _ => Within.bind (within_skipNext hr _) fun _ => ih _ _ _
    · exact within_copyOut hr _ _ _

theorem within_escapeJsonLoop (fuel o : Nat) (x : Str) : Within R W (escapeJsonLoop r fuel o x) := by
  induction fuel generalizing o x with
  | zero => exact within_fin _
  | succ n ih =>
    unfold escapeJsonLoop findFirstEscapableChar escapeSequenceAt
    refine Within.bind (Within.bind (within_ptr _ _) fun _ => Within.bind (within_scan hr _ _ _) fun _ => by walk) fun _ => ?_
    split
    · refine Within.bind (within_copyOut hr _ _ _) fun _ => Within.bind (by walk) fun _ => ih _ _
    · exact within_copyOut hr _ _ _

theorem within_nextCharLoop (fuel it stop : Nat) : Within R W (nextCharLoop r fuel it stop) := by
  induction fuel generalizing it stop with
  | zero => exact within_fin _
  | succ n ih =>
    unfold nextCharLoop
    refine Within.bind (within_safeDecodeNext hr _) fun _ => ?_
    walk
    exact ih _ _

theorem within_getNextCharRange (o : Nat) : Within R W (getNextCharRange r o) := by
  unfold getNextCharRange
  refine Within.bind (within_ptr _ _) fun _ => Within.bind (within_safeDecodeNext hr _) fun _ => ?_
  split
  · exact within_fin _
  · exact Within.bind (within_nextCharLoop hr _ _ _) fun _ => within_fin _

theorem within_prevCharLoop (fuel it : Nat) : Within R W (prevCharLoop r fuel it) := by
  induction fuel generalizing it with
  | zero => exact within_fin _
  | succ n ih =>
    unfold prevCharLoop
    refine Within.bind (within_safeDecodePrev hr _) fun _ => ?_
    walk
    exact ih _

theorem within_getPrevCharRange (o : Nat) : Within R W (getPrevCharRange r o) := by
  unfold getPrevCharRange
  exact Within.bind (within_ptr _ _) fun _ => Within.bind (within_prevCharLoop hr _ _) fun _ => within_fin _

theorem within_countCharsLoop (fuel o k : Nat) : Within R W (countCharsLoop r fuel o k) := by
  induction fuel generalizing o k with
  | zero => exact within_fin _
  | succ n ih =>
    unfold countCharsLoop
    split
    · exact Within.bind (within_getNextCharRange hr _) fun _ => ih _ _
    · exact within_fin _

theorem within_getCharPosFwd (pos o : Nat) : Within R W (getCharPosFwd r pos o) := by
  induction pos generalizing o with
  | zero => exact within_fin _
  | succ n ih =>
    unfold getCharPosFwd
    refine Within.bind (within_getNextCharRange hr _) fun _ => ?_
    split
    · exact within_fin _
    · exact ih _

theorem within_getCharPosBwd (pos o : Nat) : Within R W (getCharPosBwd r pos o) := by
  induction pos generalizing o with
  | zero => exact within_fin _
  | succ n ih =>
    unfold getCharPosBwd
    refine Within.bind (within_getPrevCharRange hr _) fun _ => ?_
    split
    · exact within_fin _
    · exact ih _

theorem within_getCharPos (pos : Int) : Within R W (getCharPos r pos) := by
  unfold getCharPos
  split
  · exact within_getCharPosFwd hr _ _
  · exact within_getCharPosBwd hr _ _

theorem within_getCharRange (pos : Int) : Within R W (getCharRange r pos) := by
  unfold getCharRange
  split
  · refine Within.bind (within_getCharPos hr _) fun _ => ?_
    split
    · exact within_fin _
    · exact within_getNextCharRange hr _
  · split
    · refine Within.bind (within_getCharPos hr _) fun _ => ?_
      split
      · exact within_fin _
      · exact within_getPrevCharRange hr _
    · exact within_getPrevCharRange hr _

theorem within_reverseLoop (fuel o : Nat) (x : Str) : Within R W (reverseLoop r fuel o x) := by
  induction fuel generalizing o x with
  | zero => exact within_fin _
  | succ n ih =>
    unfold reverseLoop
    split
    · exact Within.bind (within_getPrevCharRange hr _) fun _ => Within.bind (within_copyOut hr _ _ _) fun _ => ih _ _
    · exact within_fin _

theorem within_skipNextN (pos it : Nat) : Within R W (skipNextN r pos it) := by
  induction pos generalizing it with
  | zero => exact within_fin _
  | succ n ih =>
    unfold skipNextN
    refine Within.bind (within_skipNext hr _) fun _ => ?_
    split
    · exact within_fin _
    · exact ih _

theorem within_skipPrevN (pos it : Nat) : Within R W (skipPrevN r pos it) := by
  induction pos generalizing it with
  | zero => exact within_fin _
  | succ n ih =>
    unfold skipPrevN
    refine Within.bind (within_skipPrev hr _) fun _ => ?_
    split
    · exact within_fin _
    · exact ih _

theorem within_getCodepoint (pos : Int) : Within R W (getCodepoint r pos) := by
  unfold getCodepoint
  split
  · refine Within.bind (within_skipNextN hr _ _) fun _ => Within.bind (within_safeDecodeNext hr _) fun _ => ?_
    split <;> exact within_fin _
  · refine Within.bind (within_skipPrevN hr _ _) fun _ => Within.bind (within_safeDecodePrev hr _) fun _ => ?_
    split <;> exact within_fin _

theorem within_getCodepointPos (pos : Int) : Within R W (getCodepointPos r pos) := by
  unfold getCodepointPos
  split
  · exact within_fin _
  split
  · exact within_fin _
  split
  · refine Within.bind (within_skipNextN hr _ _) fun _ => ?_
    dsimp only
    split <;> exact within_fin _
  · refine Within.bind (within_skipPrevN hr _ _) fun _ => ?_
    dsimp only
    split <;> exact within_fin _

theorem within_appendBetween (f t : Nat) (x : Str) : Within R W (appendBetween r f t x) := by
  unfold appendBetween
  split
  · exact within_copyOut hr _ _ _
  · exact within_fin _

theorem within_composeRun (fuel : Nat) (ch mark : Char32) (it : Nat) : Within R W (composeRun r fuel ch mark it) := by
  induction fuel generalizing ch mark it with
  | zero => exact within_fin _
  | succ n ih =>
    unfold composeRun
    refine Within.bind (within_safeDecodeNext hr _) fun _ => ?_
    split
    · exact within_fin _
    · refine Within.bind (within_fin _) fun _ => ?_
      split
      · exact within_fin _
      · exact ih _ _ _

theorem within_toComposedLoop (fuel : Nat) (ch : Char32) (x : Str) (f it t p : Nat) : Within R W (toComposedLoop r fuel ch x f it t p) := by
  induction fuel generalizing ch x f it t p with
  | zero => exact within_fin _
  | succ n ih =>
    unfold toComposedLoop
    refine Within.bind (within_safeDecodeNext hr _) fun _ => ?_
    split
    · exact within_appendBetween hr _ _ _
    · refine Within.bind (within_fin _) fun _ => ?_
      split
      · exact ih _ _ _ _ _ _
      · exact Within.bind (within_appendBetween hr _ _ _) fun _ => Within.bind (within_composeRun hr _ _ _ _) fun _ => ih _ _ _ _ _ _

theorem within_toComposed : Within R W (toComposed r) := by
  unfold toComposed
  refine Within.bind (within_safeDecodeNext hr _) fun _ => ?_
  split
  · exact within_fin _
  · exact within_toComposedLoop hr _ _ _ _ _ _ _

omit hr in
theorem subview_sub {r r' : Range} {pos n : Nat} (h : subview r pos n = .ok r') : ∀ a, Mem' r' a → Mem' r a := by
  unfold subview at h
  split at h
  · cases h
  · injection h with h
    subst h
    rintro a ⟨h1, h2⟩
    dsimp only at h1 h2
    exact ⟨by omega, by omega⟩

theorem within_findFirstWhere (pred : Char32 → Bool) (o : Nat) : Within R W (findFirstWhere r pred o) :=
  Within.bind (within_ptr _ _) fun _ => within_findFirstWhereLoop hr _ _ _ _

theorem within_findLastWhere (pred : Char32 → Bool) (o : Nat) : Within R W (findLastWhere r pred o) :=
  Within.bind (within_ptr _ _) fun _ => within_findLastWhereLoop hr _ _ _ _

theorem within_trimEndWhere (pred : Char32 → Bool) : Within R W (trimEndWhere r pred) := by
  unfold trimEndWhere
  refine Within.bind (within_findLastWhere hr _ _) fun _ => ?_
  dsimp only
  split <;> exact within_fin _

/-- the accesses of `trim_start_where` and of what is done with the view that it returns -/
theorem within_trimStartWhere {β : Type} (pred : Char32 → Bool) {f : Range → Prog β}
    (hf : ∀ r' : Range, (∀ a, Mem' r' a → Mem' r a) → Within R W (f r')) : Within R W (trimStartWhere r pred >>= f) := by
  unfold trimStartWhere
  rw [bind_def, bind_def, bind_assoc']
  refine Within.bind (within_findFirstWhere hr _ _) fun x => ?_
  dsimp only
  split
  · refine hf nullView ?_
    rintro a ⟨h1, h2⟩
    exact absurd h2 (Nat.not_lt_zero _)
  · cases e : subview r x.1.start with
    | ok r' => exact hf r' (subview_sub e)
    | error er => exact .done _

theorem within_trimWhere (pred : Char32 → Bool) : Within R W (trimWhere r pred) := by
  unfold trimWhere
  exact within_trimStartWhere hr _ fun r' h => within_trimEndWhere (fun a ha => hr a (h a ha)) _

theorem within_findFirstNewline (b : List Char32) (o : Nat) : Within R W (findFirstNewline b r o) := by
  unfold findFirstNewline
  refine Within.bind (within_findFirstWhere hr _ _) fun _ => ?_
  dsimp only
  split
  · exact within_fin _
  · refine Within.bind (within_ptr _ _) fun _ => Within.bind (within_safeDecodeNext hr _) fun _ => ?_
    split
    · exact within_fin _
    · split <;> exact within_fin _

theorem within_findLastNewline (b : List Char32) (o : Nat) : Within R W (findLastNewline b r o) := by
  unfold findLastNewline
  refine Within.bind (within_findLastWhere hr _ _) fun _ => ?_
  dsimp only
  split
  · exact within_fin _
  · refine Within.bind (within_ptr _ _) fun _ => Within.bind (within_safeDecodePrev hr _) fun _ => ?_
    split
    · exact within_fin _
    · split <;> exact within_fin _

theorem within_getCappedCharPos (pos : Int) : Within R W (getCappedCharPos r pos) := by
  unfold getCappedCharPos
  refine Within.bind (within_getCharPos hr _) fun _ => ?_
  split <;> exact within_fin _

theorem within_getCappedCodepointPos (pos : Int) : Within R W (getCappedCodepointPos r pos) := by
  unfold getCappedCodepointPos
  refine Within.bind (within_getCodepointPos hr _) fun _ => ?_
  split <;> exact within_fin _

omit hr in
theorem within_substr {β : Type} {r : Range} {pos n : Nat} {f : Range → Prog β}
    (hf : ∀ r' : Range, (∀ a, Mem' r' a → Mem' r a) → Within R W (f r')) : Within R W (fin (subview r pos n) >>= f) := by
  cases e : subview r pos n with
  | ok r' => exact hf r' (subview_sub e)
  | error er => exact .done _

theorem within_getCharSubstring (i j : Int) : Within R W (getCharSubstring r i j) := by
  unfold getCharSubstring
  refine Within.bind ?_ fun _ => within_fin _
  unfold getCharSubstringRange
  dsimp only
  repeat' split
  all_goals refine Within.bind (within_getCappedCharPos hr _) fun _ => ?_
  all_goals first
    | exact Within.bind (within_getCappedCharPos hr _) fun _ => within_fin _
    | exact within_substr fun r' h => Within.bind (within_getCappedCharPos (fun a ha => hr a (h a ha)) _) fun _ => within_fin _

theorem within_getCodepointSubstring (i j : Int) : Within R W (getCodepointSubstring r i j) := by
  unfold getCodepointSubstring
  refine Within.bind ?_ fun _ => within_fin _
  unfold getCodepointSubstringRange
  dsimp only
  repeat' split
  all_goals refine Within.bind (within_getCappedCodepointPos hr _) fun _ => ?_
  all_goals first
    | exact Within.bind (within_getCappedCodepointPos hr _) fun _ => within_fin _
    | exact within_substr fun r' h => Within.bind (within_getCappedCodepointPos (fun a ha => hr a (h a ha)) _) fun _ => within_fin _

variable (hw : ∀ a, Mem' r a → W a)
include hw

omit hr in
theorem within_encodeLoop (c : Char32) (k s it : Nat) : Within R W (encodeLoop r c k s it) := by
  induction k generalizing s it with
  | zero => exact within_fin _
  | succ n ih =>
    unfold encodeLoop
    walk
    exact ih _ _

omit hr in
theorem within_encodeDetail (c : Char32) (k it : Nat) : Within R W (encodeDetail r c k it) := by
  unfold encodeDetail
  walk
  exact within_encodeLoop hw _ _ _ _

omit hr in
theorem within_encodeUtf8Buf (c : Char32) : Within R W (encodeUtf8Buf r c) := by
  unfold encodeUtf8Buf
  exact Within.bind (within_encodeDetail hw _ _ _) fun _ => within_fin _

theorem within_copyLoop (k a b : Nat) : Within R W (copyLoop r k a b) := by
  induction k generalizing a b with
  | zero => exact within_fin _
  | succ n ih =>
    unfold copyLoop
    walk
    exact ih _ _

theorem within_copyIfMoved (a b c : Nat) : Within R W (copyIfMoved r a b c) := by
  unfold copyIfMoved
  walk
  exact within_copyLoop hr hw _ _ _

theorem within_unescapeLoop (fuel a b : Nat) : Within R W (unescapeLoop r fuel a b) := by
  induction fuel generalizing a b with
  | zero => exact within_fin _
  | succ n ih =>
    unfold unescapeLoop
    refine Within.bind (within_findFirstEscapedChar hr _) fun _ => Within.bind (within_copyIfMoved hr hw _ _ _) fun _ => ?_
    split
    · exact within_fin _
    · refine Within.bind (within_decodeEscaped hr _) fun _ => Within.bind (within_ptr _ _) fun _ =>
        Within.bind (within_encodeDetail hw _ _ _) fun _ => ih _ _

end

theorem within_map {β : Type} {R W : Nat → Prop} (f : β → α) {p : Prog β} (h : Within R W p) : Within R W (Spec.Prog.map f p) :=
  Within.bind h fun _ => .done _

/-- every call keeps to its arguments and buffers -/
theorem within_call (c : Call) : Within (InSome c.args) (InSome c.buffers) c.prog := by
  have one : ∀ (r : Range) (l : List Range), r ∈ l → ∀ a, Mem' r a → InSome l a := fun r l h a ha => ⟨r, h, ha⟩
  cases c with
  | decodeNext it last => exact within_map _ (within_decodeNext (one _ _ (by simp [Call.args])) _)
  | decodePrev first it => exact within_map _ (within_decodePrev (one _ _ (by simp [Call.args])) _)
  | skipNext it last => exact within_map _ (within_skipNext (one _ _ (by simp [Call.args])) _)
  | isValidUtf8 r => exact within_map _ (within_isValidUtf8Loop (one _ _ (by simp [Call.args])) _ _)
  | toUtf32 r => exact within_map _ (within_toUtf32Loop (one _ _ (by simp [Call.args])) _ _ _)
  | contains r c => exact within_map _ (within_containsLoop (one _ _ (by simp [Call.args])) _ _ _)
  | countCodepoints r => exact within_map _ (within_countCodepointsLoop (one _ _ (by simp [Call.args])) _ _ _)
  | findFirstWhere r pred o =>
    exact within_map _ (Within.bind (within_ptr _ _) fun _ => within_findFirstWhereLoop (one _ _ (by simp [Call.args])) _ _ _ _)
  | findLastWhere r pred o =>
    exact within_map _ (Within.bind (within_ptr _ _) fun _ => within_findLastWhereLoop (one _ _ (by simp [Call.args])) _ _ _ _)
  | toLower r => exact within_map _ (within_toLowerLoop (one _ _ (by simp [Call.args])) _ _ _)
  | toUpper r => exact within_map _ (within_toUpperLoop (one _ _ (by simp [Call.args])) _ _ _)
  | compare r r' =>
    exact within_map _ (within_compareLoop (one r _ (by simp [Call.args])) (one r' _ (by simp [Call.args])) _ _ _)
  | skipPrev first it => exact within_map _ (within_skipPrev (one _ _ (by simp [Call.args])) _)
  | toTitle r => exact within_map _ (within_toTitleLoop (one _ _ (by simp [Call.args])) _ _ _ _)
  | equal r r' =>
    exact within_map _ (within_equalLoop (one r _ (by simp [Call.args])) (one r' _ (by simp [Call.args])) _ _ _)
  | less r r' =>
    exact within_map _ (within_lessLoop (one r _ (by simp [Call.args])) (one r' _ (by simp [Call.args])) _ _ _)
  | startsWith r r' =>
    exact within_map _ (Within.bind (within_nextMismatch (one r _ (by simp [Call.args])) (one r' _ (by simp [Call.args])) _ _ _) fun _ => within_fin _)
  | endsWith r r' =>
    exact within_map _ (Within.bind (within_prevMismatch (one r _ (by simp [Call.args])) (one r' _ (by simp [Call.args])) _ _ _) fun _ => within_fin _)
  | findFirst r r' o => exact within_map _ (within_findFirst (one r _ (by simp [Call.args])) (one r' _ (by simp [Call.args])) _)
  | findLast r r' o => exact within_map _ (within_findLast (one r _ (by simp [Call.args])) (one r' _ (by simp [Call.args])) _)
  | replaceInvalidUtf8 r c => exact within_map _ (within_replaceInvalidLoop (one _ _ (by simp [Call.args])) _ _ _ _ _)
  | escapeJson r => exact within_map _ (within_escapeJsonLoop (one _ _ (by simp [Call.args])) _ _ _)
  | encodeUtf8 r c => exact within_map _ (within_encodeUtf8Buf (one _ _ (by simp [Call.buffers])) _)
  | unescape r =>
    exact within_map _ (within_unescapeLoop (one _ _ (by simp [Call.args])) (one _ _ (by simp [Call.buffers])) _ _ _)
  | countChars r => exact within_map _ (within_countCharsLoop (one _ _ (by simp [Call.args])) _ _ _)
  | getCharPos r pos => exact within_map _ (within_getCharPos (one _ _ (by simp [Call.args])) _)
  | getCharRange r pos => exact within_map _ (within_getCharRange (one _ _ (by simp [Call.args])) _)
  | reverse r => exact within_map _ (within_reverseLoop (one _ _ (by simp [Call.args])) _ _ _)
  | getCodepoint r pos => exact within_map _ (within_getCodepoint (one _ _ (by simp [Call.args])) _)
  | getCodepointPos r pos => exact within_map _ (within_getCodepointPos (one _ _ (by simp [Call.args])) _)
  | toComposed r => exact within_map _ (within_toComposed (one _ _ (by simp [Call.args])))
  | trimStartWhere r pred => exact within_trimStartWhere (one _ _ (by simp [Call.args])) _ fun _ _ => .done _
  | trimEndWhere r pred => exact within_map _ (within_trimEndWhere (one _ _ (by simp [Call.args])) _)
  | trimWhere r pred => exact within_map _ (within_trimWhere (one _ _ (by simp [Call.args])) _)
  | findFirstNewline b r o => exact within_map _ (within_findFirstNewline (one _ _ (by simp [Call.args])) _ _)
  | findLastNewline b r o => exact within_map _ (within_findLastNewline (one _ _ (by simp [Call.args])) _ _)
  | getCharSubstring r i j => exact within_map _ (within_getCharSubstring (one _ _ (by simp [Call.args])) _ _)
  | getCodepointSubstring r i j => exact within_map _ (within_getCodepointSubstring (one _ _ (by simp [Call.args])) _ _)

end Ystring.Thr
