import Verif.Props.CaseTables
/-
Property theorems C103 (laws of the case conversions of strings).
-/
namespace Ystring
open Spec

/-! ### Case conversion as functions of lists of code points -/

/-- the encoding of a list of code points -/
def enc (cs : List Char32) : Str := cs.flatMap fun c => rfcEncode c.toNat

theorem enc_append (a b : List Char32) : enc (a ++ b) = enc a ++ enc b := by simp [enc]

theorem enc_decodes {cs : List Char32} (h : InUnicode cs) : Decodes (enc cs) cs := by
  induction cs with
  | nil => exact .nil
  | cons c cs ih =>
    rw [enc, List.flatMap_cons]
    exact .cons (rfcEncode_seq c (h c List.mem_cons_self)) (ih (fun d hd => h d (List.mem_cons_of_mem _ hd)))

theorem enc_inj {a b : List Char32} (ha : InUnicode a) (hb : InUnicode b) : enc a = enc b ↔ a = b :=
  ⟨fun e => (e ▸ enc_decodes ha).unique (enc_decodes hb), fun e => by rw [e]⟩

/-- `f` decodes its argument, applies `F`, and encodes the result -/
structure Converts (f : Str → Res Str) (F : List Char32 → List Char32) : Prop where
  eq : ∀ s cs, Decodes s cs → InUnicode cs → f s = .ok (enc (F cs))
  err : ∀ s, (¬ ∃ cs, Decodes s cs ∧ InUnicode cs) → f s = .error .ystring
  uni : ∀ cs, InUnicode cs → InUnicode (F cs)

theorem lower_converts : Converts toLower (fun cs => cs.map toLowerChar) where
  eq s cs h hu := by
    rw [(C53_to_lower s).1 cs h hu, lowerText, enc, List.flatMap_map]
    congr 2
    funext c
    rw [C52_to_lower]
  err s h := (C53_to_lower s).2 h
  uni cs h := (lowerText_decodes cs h).2

theorem upper_converts : Converts toUpper (fun cs => cs.flatMap upperChars) where
  eq s cs h hu := by rw [(C53_to_upper s).1 cs h hu, upperText_eq, enc, List.flatMap_assoc]
  err s h := (C53_to_upper s).2 h
  uni cs h := (upperText_decodes cs h).2

/-- what a code point becomes in title case -/
def titleChars (pre : Bool) (c : Char32) : List Char32 :=
  if isLetter c then
    if pre then [toLowerChar c] else if c.toNat = 0xDF then [0x53, 0x73] else [toTitleChar c]
  else [c]

/-- a list of code points in title case -/
def titleList : Bool → List Char32 → List Char32
  | _, [] => []
  | pre, c :: cs => titleChars pre c ++ titleList (isLetter c) cs

theorem titleText_enc (pre : Bool) (cs : List Char32) : titleText isLetter pre cs = enc (titleList pre cs) := by
  induction cs generalizing pre with
  | nil => rfl
  | cons c cs ih =>
    rw [titleText, titleList, enc_append, ← ih]
    unfold titleChars
    cases h : isLetter c
    · simp [enc]
    · simp only [if_true]
      congr 1
      cases pre
      · simp only [Bool.false_eq_true, if_false]
        by_cases h1 : c.toNat = 0xDF
        · rw [if_pos h1, if_pos h1]; rfl
        · rw [if_neg h1, if_neg h1]
          simp [enc, C52_to_title]
      · simp [enc, C52_to_lower]

theorem titleList_uni (pre : Bool) (cs : List Char32) (h : InUnicode cs) : InUnicode (titleList pre cs) := by
  induction cs generalizing pre with
  | nil => intro c hc; cases hc
  | cons c cs ih =>
    have hc := h c List.mem_cons_self
    intro d hd
    rcases List.mem_append.mp hd with hd | hd
    · unfold titleChars at hd
      split at hd
      · split at hd
        · rw [List.mem_singleton.mp hd]; exact (C52_range c).1.mpr hc
        · split at hd
          · simp only [List.mem_cons, List.not_mem_nil, or_false] at hd
            rcases hd with rfl | rfl <;> decide
          · rw [List.mem_singleton.mp hd]; exact (C52_range c).2.2.mpr hc
      · rw [List.mem_singleton.mp hd]; exact hc
    · exact ih _ (fun d hd => h d (List.mem_cons_of_mem _ hd)) d hd

theorem title_converts : Converts toTitle (titleList false) where
  eq s cs h hu := by rw [(C53_to_title s).1 cs h hu, titleText_enc]
  err s h := (C53_to_title s).2 h
  uni cs h := titleList_uni _ cs h

/-- a successful conversion -/
theorem Converts.ok {f F} (hf : Converts f F) {s a : Str} (h : f s = .ok a) {cs : List Char32} (hs : toUtf32 s = .ok cs) :
    Decodes s cs ∧ InUnicode cs ∧ a = enc (F cs) := by
  have hd := ((C09_to_utf32 _).1 _).mp hs
  by_cases hc : ∃ cs, Decodes s cs ∧ InUnicode cs
  · obtain ⟨cs', h1, h2⟩ := hc
    have := hd.unique h1
    subst this
    rw [hf.eq s _ h1 h2] at h
    exact ⟨h1, h2, (Except.ok.inj h).symm⟩
  · rw [hf.err s hc] at h
    cases h

/-- one conversion after another gives the result of a third iff the functions of code points do -/
theorem Converts.comp {f F g G k K} (hf : Converts f F) (hg : Converts g G) (hk : Converts k K) {s a b : Str}
    {cs : List Char32} (hs : toUtf32 s = .ok cs) (ha : f s = .ok a) (hb : k s = .ok b) :
    g a = .ok b ↔ G (F cs) = K cs := by
  obtain ⟨h1, h2, rfl⟩ := hf.ok ha hs
  obtain ⟨_, _, rfl⟩ := hk.ok hb hs
  have h3 := hf.uni cs h2
  rw [hg.eq _ _ (enc_decodes h3) h3, Except.ok.injEq, enc_inj (hg.uni _ h3) (hk.uni _ h2)]

/-! ### The laws for lists of code points -/

/-- outputs that begin with different code points -/
def HeadsDiffer (a b : List Char32) : Prop := ∃ x xs y ys, a = x :: xs ∧ b = y :: ys ∧ x ≠ y

theorem HeadsDiffer.ne {a b : List Char32} (h : HeadsDiffer a b) (u v : List Char32) : a ++ u ≠ b ++ v := by
  obtain ⟨x, xs, y, ys, rfl, rfl, hne⟩ := h
  intro e
  exact hne (List.cons.inj e).1

theorem heads_single {x y : Char32} (h : x ≠ y) : HeadsDiffer [x] [y] := ⟨x, [], y, [], rfl, rfl, h⟩

/-- `Good` holds of every code point; its first argument tells whether the code point before is a letter -/
def Everywhere (Good : Bool → Char32 → Prop) : Bool → List Char32 → Prop
  | _, [] => True
  | p, c :: cs => Good p c ∧ Everywhere Good (isLetter c) cs

/-- Two functions that work from left to right, agree on good code points, and differ at once on others. -/
theorem agree_iff (F G : Bool → List Char32 → List Char32) (f g : Bool → Char32 → List Char32) (Good : Bool → Char32 → Prop)
    (hF0 : ∀ p, F p [] = []) (hG0 : ∀ p, G p [] = [])
    (hF : ∀ p c cs, ∃ u, F p (c :: cs) = f p c ++ u ∧ (Good p c → u = F (isLetter c) cs))
    (hG : ∀ p c cs, G p (c :: cs) = g p c ++ G (isLetter c) cs)
    (hgood : ∀ p c, Good p c → f p c = g p c) (hbad : ∀ p c, ¬ Good p c → HeadsDiffer (f p c) (g p c)) :
    ∀ p cs, F p cs = G p cs ↔ Everywhere Good p cs := by
  intro p cs
  induction cs generalizing p with
  | nil => simp [hF0, hG0, Everywhere]
  | cons c cs ih =>
    obtain ⟨u, h1, h2⟩ := hF p c cs
    rw [h1, hG, Everywhere]
    by_cases hc : Good p c
    · rw [h2 hc, hgood p c hc, List.append_cancel_left_eq, ih]
      exact ⟨fun h => ⟨hc, h⟩, fun h => h.2⟩
    · exact ⟨fun e => absurd e ((hbad p c hc).ne _ _), fun h => absurd h.1 hc⟩

/-- three conditions: on first letters, other letters, other code points -/
def Cond (A B D : Char32 → Prop) (p : Bool) (c : Char32) : Prop :=
  if isLetter c then if p then B c else A c else D c

theorem everywhere_iff (A B D : Char32 → Prop) (p : Bool) (cs : List Char32) :
    Everywhere (Cond A B D) p cs ↔ (∀ c ∈ wordStarts isLetter p cs, A c) ∧ (∀ c ∈ wordRests isLetter p cs, B c) ∧
      (∀ c ∈ cs, isLetter c = false → D c) := by
  induction cs generalizing p with
  | nil => simp [Everywhere, wordStarts, wordRests]
  | cons c cs ih =>
    rw [Everywhere, ih, wordStarts, wordRests, Cond]
    simp only [List.forall_mem_append, List.forall_mem_cons]
    cases h : isLetter c
    · simp only [Bool.false_eq_true, if_false, Bool.false_and, List.not_mem_nil, false_imp_iff, implies_true, true_and,
        forall_const]
      exact ⟨fun ⟨a, b, c, d⟩ => ⟨b, c, a, d⟩, fun ⟨b, c, a, d⟩ => ⟨a, b, c, d⟩⟩
    · cases p
      · simp
        exact and_assoc.symm
      · simp
        constructor
        · rintro ⟨a, b, c, d⟩; exact ⟨b, ⟨a, c⟩, d⟩
        · rintro ⟨b, ⟨a, c⟩, d⟩; exact ⟨a, b, c, d⟩

/-- whether the last code point is a letter -/
def after : Bool → List Char32 → Bool
  | p, [] => p
  | _, c :: cs => after (isLetter c) cs

theorem titleList_append (p : Bool) (a b : List Char32) : titleList p (a ++ b) = titleList p a ++ titleList (after p a) b := by
  induction a generalizing p with
  | nil => rfl
  | cons c a ih => rw [List.cons_append, titleList, titleList, ih, after, List.append_assoc]

theorem upperChars_single {c : Char32} (h : c.toNat ≠ 0xDF) : upperChars c = [toUpperChar c] := if_neg h

theorem titleChars_start {c : Char32} (h : isLetter c = true) (h0 : c.toNat ≠ 0xDF) : titleChars false c = [toTitleChar c] := by
  simp [titleChars, h, h0]
theorem titleChars_start_ss {c : Char32} (h : isLetter c = true) (h0 : c.toNat = 0xDF) : titleChars false c = [0x53, 0x73] := by
  simp [titleChars, h, h0]
theorem titleChars_rest {c : Char32} (h : isLetter c = true) : titleChars true c = [toLowerChar c] := by
  simp [titleChars, h]
theorem titleChars_other {p : Bool} {c : Char32} (h : isLetter c = false) : titleChars p c = [c] := by
  simp [titleChars, h]

theorem eq_DF {c : Char32} (h : c.toNat = 0xDF) : c = 0xDF := UInt32.toNat_inj.mp h

theorem letters_few : isLetter 0x53 = true ∧ isLetter 0x73 = true ∧ isLetter 0xDF = true ∧ toLowerChar 0x53 = 0x73 ∧
    toLowerChar 0x73 = 0x73 ∧ toLowerChar 0xDF = 0xDF ∧ toTitleChar 0x53 = 0x53 ∧ toUpperChar 0x53 = 0x53 ∧
    toUpperChar 0x73 = 0x53 ∧ toUpperChar 0xDF = 0xDF ∧ toTitleChar 0xDF = 0xDF := by decide +kernel

theorem conv_eq {a b : Char32} (h : a.toNat = b.toNat) : a = b := UInt32.toNat_inj.mp h

theorem title_DF_tbl : UD_TITLE.all (fun p => !Nat.beq p.2 0xDF) = true := by decide +kernel
theorem title_DF {c : Char32} (h : c.toNat ≠ 0xDF) : (toTitleChar c).toNat ≠ 0xDF := by
  rw [C52_to_title]
  refine lookup_prop UD_TITLE (fun c v => c ≠ 0xDF → v ≠ 0xDF) ?_ _ (fun h => h) h
  intro p hp _ e
  have := List.all_eq_true.mp title_DF_tbl p hp
  rw [e] at this
  exact absurd this (by decide)

theorem upper_DF_tbl : UD_UPPER.all (fun p => !Nat.beq p.2 0xDF) = true := by decide +kernel
theorem up_DF {c : Char32} (h : c.toNat ≠ 0xDF) : (toUpperChar c).toNat ≠ 0xDF := by
  rw [C52_to_upper]
  refine lookup_prop UD_UPPER (fun c v => c ≠ 0xDF → v ≠ 0xDF) ?_ _ (fun h => h) h
  intro p hp _ e
  have := List.all_eq_true.mp upper_DF_tbl p hp
  rw [e] at this
  exact absurd this (by decide)

/-- what is in title case stays as it is -/
theorem titleList_idem (p : Bool) (cs : List Char32) : titleList p (titleList p cs) = titleList p cs := by
  induction cs generalizing p with
  | nil => rfl
  | cons c cs ih =>
    rw [titleList, titleList_append]
    have key : titleList p (titleChars p c) = titleChars p c ∧ after p (titleChars p c) = isLetter c := by
      cases hl : isLetter c
      · rw [titleChars_other hl]
        simp [titleList, titleChars_other hl, after, hl]
      · cases p
        · by_cases h0 : c.toNat = 0xDF
          · rw [titleChars_start_ss hl h0]
            decide +kernel
          · rw [titleChars_start hl h0]
            have h1 := letter_title c hl
            refine ⟨?_, h1⟩
            rw [titleList, titleChars_start h1 (title_DF h0), (C52_idempotent c).2.2]
            rfl
        · rw [titleChars_rest hl]
          have h1 := letter_lower c
          rw [hl] at h1
          refine ⟨?_, h1⟩
          rw [titleList, titleChars_rest h1, (C52_idempotent c).1]
          rfl
    rw [key.1, key.2, ih]

theorem iff_of_toNat {a b : Char32} : a = b ↔ a.toNat = b.toNat := UInt32.toNat_inj.symm

theorem low_up (c : Char32) : toLowerChar (toUpperChar c) = toLowerChar c ↔ c.toNat ∉ NoWayBackFromUpper := by
  rw [iff_of_toNat, C52_to_lower, C52_to_upper, C52_to_lower]; exact lower_upper_iff _
theorem low_tit (c : Char32) : toLowerChar (toTitleChar c) = toLowerChar c ↔ c.toNat ∉ NoWayBackFromUpper := by
  rw [iff_of_toNat, C52_to_lower, C52_to_title, C52_to_lower]; exact lower_title_iff _
theorem tit_low (c : Char32) : toTitleChar (toLowerChar c) = toTitleChar c ↔ c.toNat ∉ NoWayBackFromLower ∧ ¬ Mtavruli c.toNat := by
  rw [iff_of_toNat, C52_to_title, C52_to_lower, C52_to_title]; exact title_lower_iff _
theorem tit_up (c : Char32) : toTitleChar (toUpperChar c) = toTitleChar c ↔ ¬ Mkhedruli c.toNat := by
  rw [iff_of_toNat, C52_to_title, C52_to_upper, C52_to_title]; exact title_upper_iff _
theorem up_low (c : Char32) : toUpperChar (toLowerChar c) = toUpperChar c ↔ c.toNat ∉ NoWayBackFromLower := by
  rw [iff_of_toNat, C52_to_upper, C52_to_lower, C52_to_upper]; exact simpleUpper_simpleLower _
theorem up_tit (c : Char32) : toUpperChar (toTitleChar c) = toUpperChar c := by
  rw [iff_of_toNat, C52_to_upper, C52_to_title, C52_to_upper]; exact simpleUpper_simpleTitle _

/-- C103, lists: lower case after upper case -/
theorem lower_upper_list (cs : List Char32) :
    (cs.flatMap upperChars).map toLowerChar = cs.map toLowerChar ↔ ∀ c ∈ cs, c ≠ 0xDF ∧ c.toNat ∉ NoWayBackFromUpper := by
  have key := agree_iff (fun _ cs => (cs.flatMap upperChars).map toLowerChar) (fun _ cs => cs.map toLowerChar)
    (fun _ c => (upperChars c).map toLowerChar) (fun _ c => [toLowerChar c])
    (fun _ c => c ≠ 0xDF ∧ c.toNat ∉ NoWayBackFromUpper) (fun _ => rfl) (fun _ => rfl)
    (fun _ c cs => ⟨(cs.flatMap upperChars).map toLowerChar, by simp, fun _ => rfl⟩) (fun _ c cs => by simp) ?_ ?_ false cs
  · rw [key]
    clear key
    generalize false = p
    induction cs generalizing p with
    | nil => simp [Everywhere]
    | cons c cs ih =>
      rw [List.forall_mem_cons]
      exact and_congr_right' (ih _)
  · rintro _ c ⟨h1, h2⟩
    rw [upperChars_single ((ne_DF c).mp h1), List.map_singleton, (low_up c).mpr h2]
  · intro _ c h
    by_cases h0 : c = 0xDF
    · subst h0
      exact ⟨0x73, [0x73], 0xDF, [], by decide +kernel, by decide +kernel, by decide⟩
    · rw [upperChars_single ((ne_DF c).mp h0)]
      exact heads_single (fun e => h ⟨h0, (low_up c).mp e⟩)

/-- C103, lists: lower case after title case -/
theorem lower_title_list (p : Bool) (cs : List Char32) :
    (titleList p cs).map toLowerChar = cs.map toLowerChar ↔
      ∀ c ∈ wordStarts isLetter p cs, c ≠ 0xDF ∧ c.toNat ∉ NoWayBackFromUpper := by
  have key := agree_iff (fun p cs => (titleList p cs).map toLowerChar) (fun _ cs => cs.map toLowerChar)
    (fun p c => (titleChars p c).map toLowerChar) (fun _ c => [toLowerChar c])
    (Cond (fun c => c ≠ 0xDF ∧ c.toNat ∉ NoWayBackFromUpper) (fun _ => True) (fun _ => True)) (fun _ => rfl) (fun _ => rfl)
    (fun p c cs => ⟨(titleList (isLetter c) cs).map toLowerChar, by simp [titleList], fun _ => rfl⟩) (fun _ c cs => by simp) ?_ ?_ p cs
  · rw [key, everywhere_iff]
    simp
  · intro p c h
    unfold Cond at h
    cases hl : isLetter c
    · rw [titleChars_other hl]; rfl
    · cases p
      · simp only [hl, if_true, Bool.false_eq_true, if_false] at h
        rw [titleChars_start hl ((ne_DF c).mp h.1), List.map_singleton, (low_tit c).mpr h.2]
      · rw [titleChars_rest hl, List.map_singleton, (C52_idempotent c).1]
  · intro p c h
    unfold Cond at h
    cases hl : isLetter c
    · simp [hl] at h
    · cases p
      · simp only [hl, if_true, Bool.false_eq_true, if_false] at h
        by_cases h0 : c = 0xDF
        · subst h0
          exact ⟨0x73, [0x73], 0xDF, [], by decide +kernel, by decide +kernel, by decide⟩
        · rw [titleChars_start hl ((ne_DF c).mp h0)]
          exact heads_single (fun e => h ⟨h0, (low_tit c).mp e⟩)
      · simp [hl] at h

theorem low_DF {c : Char32} (h : c.toNat ∉ NoWayBackFromLower) : (toLowerChar c).toNat = 0xDF ↔ c.toNat = 0xDF := by
  rw [C52_to_lower]; exact simpleLower_ss h

theorem upperChars_lower {c : Char32} (h : c.toNat ∉ NoWayBackFromLower) : upperChars (toLowerChar c) = upperChars c := by
  by_cases h0 : c.toNat = 0xDF
  · rw [eq_DF h0, letters_few.2.2.2.2.2.1]
  · rw [upperChars_single h0, upperChars_single (fun e => h0 ((low_DF h).mp e)), (up_low c).mpr h]

/-- C103, lists: upper case after title case -/
theorem upper_title_list (p : Bool) (cs : List Char32) :
    (titleList p cs).flatMap upperChars = cs.flatMap upperChars ↔
      ∀ c ∈ wordRests isLetter p cs, c.toNat ∉ NoWayBackFromLower := by
  have key := agree_iff (fun p cs => (titleList p cs).flatMap upperChars) (fun _ cs => cs.flatMap upperChars)
    (fun p c => (titleChars p c).flatMap upperChars) (fun _ c => upperChars c)
    (Cond (fun _ => True) (fun c => c.toNat ∉ NoWayBackFromLower) (fun _ => True)) (fun _ => rfl) (fun _ => rfl)
    (fun p c cs => ⟨(titleList (isLetter c) cs).flatMap upperChars, by simp [titleList], fun _ => rfl⟩) (fun _ c cs => by simp) ?_ ?_ p cs
  · rw [key, everywhere_iff]
    simp
  · intro p c h
    unfold Cond at h
    cases hl : isLetter c
    · rw [titleChars_other hl]; simp
    · cases p
      · by_cases h0 : c.toNat = 0xDF
        · rw [titleChars_start_ss hl h0, eq_DF h0]; decide +kernel
        · rw [titleChars_start hl h0, List.flatMap_singleton, upperChars_single (title_DF h0), upperChars_single h0, up_tit]
      · simp only [hl, if_true] at h
        rw [titleChars_rest hl, List.flatMap_singleton, upperChars_lower h]
  · intro p c h
    unfold Cond at h
    cases hl : isLetter c
    · simp [hl] at h
    · cases p
      · simp [hl] at h
      · simp only [hl, if_true, Classical.not_not] at h
        rw [titleChars_rest hl, List.flatMap_singleton]
        exact upper_lower_head c h

theorem nwb_heads : NoWayBackFromLower.all (fun n => !((titleChars false (toLowerChar (UInt32.ofNat n))).head? == (titleChars false (UInt32.ofNat n)).head?) &&
    (titleChars false (toLowerChar (UInt32.ofNat n))).head?.isSome && (titleChars false (UInt32.ofNat n)).head?.isSome) = true := by
  decide +kernel

theorem heads_of {a b : List Char32} (h : (!(a.head? == b.head?) && a.head?.isSome && b.head?.isSome) = true) : HeadsDiffer a b := by
  cases a with
  | nil => simp at h
  | cons x xs =>
    cases b with
    | nil => simp at h
    | cons y ys => exact ⟨x, xs, y, ys, rfl, rfl, by simpa using h⟩

/-- C103, lists: title case after lower case -/
theorem title_lower_list (p : Bool) (cs : List Char32) :
    titleList p (cs.map toLowerChar) = titleList p cs ↔
      (∀ c ∈ wordStarts isLetter p cs, c.toNat ∉ NoWayBackFromLower ∧ ¬ Mtavruli c.toNat) ∧
      ∀ c ∈ cs, isLetter c = false → toLowerChar c = c := by
  have key := agree_iff (fun p cs => titleList p (cs.map toLowerChar)) (fun p cs => titleList p cs)
    (fun p c => titleChars p (toLowerChar c)) titleChars
    (Cond (fun c => c.toNat ∉ NoWayBackFromLower ∧ ¬ Mtavruli c.toNat) (fun _ => True) (fun c => toLowerChar c = c))
    (fun _ => rfl) (fun _ => rfl)
    (fun p c cs => ⟨titleList (isLetter c) (cs.map toLowerChar), by simp [titleList, letter_lower], fun _ => rfl⟩)
    (fun _ c cs => rfl) ?_ ?_ p cs
  · rw [key, everywhere_iff]
    simp
  · intro p c h
    unfold Cond at h
    have hl' := letter_lower c
    cases hl : isLetter c
    · simp only [hl, Bool.false_eq_true, if_false] at h
      rw [h]
    · rw [hl] at hl'
      cases p
      · simp only [hl, if_true, Bool.false_eq_true, if_false] at h
        by_cases h0 : c.toNat = 0xDF
        · rw [eq_DF h0, letters_few.2.2.2.2.2.1]
        · rw [titleChars_start hl h0, titleChars_start hl' (fun e => h0 ((low_DF h.1).mp e)), (tit_low c).mpr h]
      · rw [titleChars_rest hl, titleChars_rest hl', (C52_idempotent c).1]
  · intro p c h
    unfold Cond at h
    have hl' := letter_lower c
    cases hl : isLetter c
    · simp only [hl, Bool.false_eq_true, if_false] at h
      rw [hl] at hl'
      rw [titleChars_other hl, titleChars_other hl']
      exact heads_single h
    · rw [hl] at hl'
      cases p
      · simp only [hl, if_true, Bool.false_eq_true, if_false] at h
        by_cases h6 : c.toNat ∈ NoWayBackFromLower
        · have := List.all_eq_true.mp nwb_heads _ h6
          rw [UInt32.ofNat_toNat] at this
          exact heads_of this
        · have h0 : c.toNat ≠ 0xDF := by
            intro e
            apply h
            rw [e]
            decide
          rw [titleChars_start hl h0, titleChars_start hl' (fun e => h0 ((low_DF h6).mp e))]
          exact heads_single (fun e => h ((tit_low c).mp e))
      · simp [hl] at h

/-- C103, lists: title case after upper case -/
theorem title_upper_list (p : Bool) (cs : List Char32) :
    titleList p (cs.flatMap upperChars) = titleList p cs ↔
      (∀ c ∈ wordStarts isLetter p cs, ¬ Mkhedruli c.toNat) ∧
      (∀ c ∈ wordRests isLetter p cs, c ≠ 0xDF ∧ c.toNat ∉ NoWayBackFromUpper) ∧
      ∀ c ∈ cs, isLetter c = false → toUpperChar c = c := by
  have key := agree_iff (fun p cs => titleList p (cs.flatMap upperChars)) (fun p cs => titleList p cs)
    (fun p c => titleList p (upperChars c)) titleChars
    (Cond (fun c => ¬ Mkhedruli c.toNat) (fun c => c ≠ 0xDF ∧ c.toNat ∉ NoWayBackFromUpper) (fun c => toUpperChar c = c))
    (fun _ => rfl) (fun _ => rfl)
    (fun p c cs => ⟨titleList (after p (upperChars c)) (cs.flatMap upperChars), by simp [titleList_append], ?_⟩)
    (fun _ c cs => rfl) ?_ ?_ p cs
  · rw [key, everywhere_iff]
  · intro h
    congr 1
    unfold Cond at h
    by_cases h0 : c.toNat = 0xDF
    · rw [eq_DF h0]
      cases p <;> decide +kernel
    · rw [upperChars_single h0]
      show isLetter (toUpperChar c) = isLetter c
      by_cases h1 : c.toNat = 0x345
      · rw [(eq_iota c).mp h1] at h
        simp only [letter_iota.1, letter_iota.2.2.2.1, Bool.false_eq_true, if_false] at h
        exact absurd h (by decide)
      · exact letter_upper c h1
  · intro p c h
    unfold Cond at h
    cases hl : isLetter c
    · simp only [hl, Bool.false_eq_true, if_false] at h
      have h0 : c.toNat ≠ 0xDF := by
        intro e
        rw [eq_DF e, letters_few.2.2.1] at hl
        cases hl
      rw [upperChars_single h0, h]
      simp [titleList]
    · have h1 : c.toNat ≠ 0x345 := by
        intro e
        rw [(eq_iota c).mp e, letter_iota.1] at hl
        cases hl
      have hl' := letter_upper c h1
      rw [hl] at hl'
      cases p
      · simp only [hl, if_true, Bool.false_eq_true, if_false] at h
        by_cases h0 : c.toNat = 0xDF
        · rw [eq_DF h0]
          decide +kernel
        · have h2 := up_DF h0
          rw [upperChars_single h0, titleList, titleChars_start hl' h2, titleChars_start hl h0, (tit_up c).mpr h]
          rfl
      · simp only [hl, if_true] at h
        rw [upperChars_single ((ne_DF c).mp h.1), titleList, titleChars_rest hl', titleChars_rest hl, (low_up c).mpr h.2]
        rfl
  · intro p c h
    unfold Cond at h
    cases hl : isLetter c
    · simp only [hl, Bool.false_eq_true, if_false] at h
      have h0 : c.toNat ≠ 0xDF := by
        intro e
        rw [eq_DF e, letters_few.2.2.1] at hl
        cases hl
      rw [upperChars_single h0, titleChars_other hl]
      by_cases h1 : c.toNat = 0x345
      · have e := (eq_iota c).mp h1
        subst e
        cases p
        · exact ⟨0x399, [], 0x345, [], by decide +kernel, rfl, by decide⟩
        · exact ⟨0x3B9, [], 0x345, [], by decide +kernel, rfl, by decide⟩
      · have hl' := letter_upper c h1
        rw [hl] at hl'
        rw [titleList, titleChars_other hl']
        exact ⟨_, [], _, [], rfl, rfl, h⟩
    · have h1 : c.toNat ≠ 0x345 := by
        intro e
        rw [(eq_iota c).mp e, letter_iota.1] at hl
        cases hl
      have hl' := letter_upper c h1
      rw [hl] at hl'
      cases p
      · simp only [hl, if_true, Bool.false_eq_true, if_false, Classical.not_not] at h
        have h0 : c.toNat ≠ 0xDF := by
          intro e
          rw [e] at h
          exact absurd h (by decide)
        have h2 := up_DF h0
        rw [upperChars_single h0, titleList, titleChars_start hl' h2, titleChars_start hl h0]
        exact ⟨_, [], _, [], rfl, rfl, fun e => (tit_up c).mp e h⟩
      · simp only [hl, if_true] at h
        by_cases h0 : c = 0xDF
        · subst h0
          exact ⟨0x73, [0x73], 0xDF, [], by decide +kernel, by decide +kernel, by decide⟩
        · rw [upperChars_single ((ne_DF c).mp h0), titleList, titleChars_rest hl', titleChars_rest hl]
          exact ⟨_, [], _, [], rfl, rfl, fun e => h ⟨h0, (low_up c).mp e⟩⟩

/-! ### The laws for strings -/

/-- C103: a string in title case stays as it is. -/
theorem C103_title_title (s t : Str) (h : toTitle s = .ok t) : toTitle t = .ok t := by
  obtain ⟨cs, h1, h2, rfl⟩ := conv_ok C53_to_title h
  rw [titleText_enc]
  have h3 := titleList_uni false cs h2
  rw [title_converts.eq _ _ (enc_decodes h3) h3, titleList_idem]

/-- C103: converting to upper case first makes no difference to the lower case version iff the string contains neither ß nor
one of the 23 code points whose upper case has another lower case. -/
theorem C103_lower_upper (s u l : Str) (cs : List Char32) (hs : toUtf32 s = .ok cs) (hu : toUpper s = .ok u)
    (hl : toLower s = .ok l) : toLower u = .ok l ↔ ∀ c ∈ cs, c ≠ 0xDF ∧ c.toNat ∉ NoWayBackFromUpper :=
  (upper_converts.comp lower_converts lower_converts hs hu hl).trans (lower_upper_list cs)

/-- C103: converting to title case first makes no difference to the lower case version iff no word begins with ß or one of
these 23 code points. -/
theorem C103_lower_title (s t l : Str) (cs : List Char32) (hs : toUtf32 s = .ok cs) (ht : toTitle s = .ok t)
    (hl : toLower s = .ok l) :
    toLower t = .ok l ↔ ∀ c ∈ wordStarts isLetter false cs, c ≠ 0xDF ∧ c.toNat ∉ NoWayBackFromUpper :=
  (title_converts.comp lower_converts lower_converts hs ht hl).trans (lower_title_list false cs)

/-- C103: converting to title case first makes no difference to the upper case version iff no word contains, after its first
letter, one of the six code points whose lower case has another upper case. -/
theorem C103_upper_title (s t u : Str) (cs : List Char32) (hs : toUtf32 s = .ok cs) (ht : toTitle s = .ok t)
    (hu : toUpper s = .ok u) :
    toUpper t = .ok u ↔ ∀ c ∈ wordRests isLetter false cs, c.toNat ∉ NoWayBackFromLower :=
  (title_converts.comp upper_converts upper_converts hs ht hu).trans (upper_title_list false cs)

/-- C103: converting to lower case first makes no difference to the title case version iff no word begins with one of these
six code points or a Georgian capital (Mtavruli), and the string contains no symbol or number with a lower case. -/
theorem C103_title_lower (s l t : Str) (cs : List Char32) (hs : toUtf32 s = .ok cs) (hl : toLower s = .ok l)
    (ht : toTitle s = .ok t) :
    toTitle l = .ok t ↔
      (∀ c ∈ wordStarts isLetter false cs, c.toNat ∉ NoWayBackFromLower ∧ ¬ Mtavruli c.toNat) ∧
      ∀ c ∈ cs, isLetter c = false → toLowerChar c = c :=
  (lower_converts.comp title_converts title_converts hs hl ht).trans (title_lower_list false cs)

/-- C103: converting to upper case first makes no difference to the title case version iff no word begins with a Georgian
letter that has a capital, no word contains after its first letter ß or one of the 23 code points, and the string contains no
symbol, number or mark with an upper case. -/
theorem C103_title_upper (s u t : Str) (cs : List Char32) (hs : toUtf32 s = .ok cs) (hu : toUpper s = .ok u)
    (ht : toTitle s = .ok t) :
    toTitle u = .ok t ↔
      (∀ c ∈ wordStarts isLetter false cs, ¬ Mkhedruli c.toNat) ∧
      (∀ c ∈ wordRests isLetter false cs, c ≠ 0xDF ∧ c.toNat ∉ NoWayBackFromUpper) ∧
      ∀ c ∈ cs, isLetter c = false → toUpperChar c = c :=
  (upper_converts.comp title_converts title_converts hs hu ht).trans (title_upper_list false cs)

theorem wordStarts_mem {letter : Char32 → Bool} {p : Bool} {cs : List Char32} {c : Char32} (h : c ∈ wordStarts letter p cs) : c ∈ cs := by
  induction cs generalizing p with
  | nil => cases h
  | cons d cs ih =>
    rcases List.mem_append.mp h with h | h
    · split at h
      · rw [List.mem_singleton.mp h]; exact List.mem_cons_self
      · cases h
    · exact List.mem_cons_of_mem _ (ih h)

theorem wordRests_mem {letter : Char32 → Bool} {p : Bool} {cs : List Char32} {c : Char32} (h : c ∈ wordRests letter p cs) : c ∈ cs := by
  induction cs generalizing p with
  | nil => cases h
  | cons d cs ih =>
    rcases List.mem_append.mp h with h | h
    · split at h
      · rw [List.mem_singleton.mp h]; exact List.mem_cons_self
      · cases h
    · exact List.mem_cons_of_mem _ (ih h)

/-- C103, ASCII: all laws hold of a string of ASCII characters. -/
theorem C103_ascii (s : Str) (h : ∀ b ∈ s, b.toNat < 0x80) : ∃ l u t, toLower s = .ok l ∧ toUpper s = .ok u ∧ toTitle s = .ok t ∧
    toLower u = .ok l ∧ toLower t = .ok l ∧ toUpper t = .ok u ∧ toTitle l = .ok t ∧ toTitle u = .ok t := by
  have hd : ∃ cs, Decodes s cs ∧ ∀ c ∈ cs, c.toNat < 0x80 := by
    induction s with
    | nil => exact ⟨[], .nil, by simp⟩
    | cons b s ih =>
      obtain ⟨cs, h1, h2⟩ := ih (fun d hd => h d (List.mem_cons_of_mem _ hd))
      have hb := h b List.mem_cons_self
      exact ⟨_, (.cons (.one (c := UInt32.ofNat b.toNat) hb (UInt32.toNat_ofNat_of_lt' (by show _ < 4294967296; omega))) h1), fun c hc => by
        rcases List.mem_cons.mp hc with rfl | hc
        · rw [UInt32.toNat_ofNat_of_lt' (by show _ < 4294967296; omega)]; exact hb
        · exact h2 c hc⟩
  obtain ⟨cs, h1, h2⟩ := hd
  have hs := ((C09_to_utf32 s).1 cs).mpr h1
  have hu : InUnicode cs := fun c hc => by have := h2 c hc; omega
  have small : ∀ n : Fin 128, n.val ∉ NoWayBackFromUpper ∧ n.val ∉ NoWayBackFromLower ∧ ¬ Mtavruli n.val ∧ ¬ Mkhedruli n.val ∧
      (isLetter (UInt32.ofNat n.val) = false → toLowerChar (UInt32.ofNat n.val) = UInt32.ofNat n.val ∧
        toUpperChar (UInt32.ofNat n.val) = UInt32.ofNat n.val) ∧ UInt32.ofNat n.val ≠ 0xDF := by decide +kernel
  have fact : ∀ c : Char32, c.toNat < 0x80 → c.toNat ∉ NoWayBackFromUpper ∧ c.toNat ∉ NoWayBackFromLower ∧ ¬ Mtavruli c.toNat ∧
      ¬ Mkhedruli c.toNat ∧ (isLetter c = false → toLowerChar c = c ∧ toUpperChar c = c) ∧ c ≠ 0xDF := by
    intro c hc
    have := small ⟨c.toNat, hc⟩
    simp only [UInt32.ofNat_toNat] at this
    exact this
  have st : ∀ p, ∀ c ∈ wordStarts isLetter p cs, c ∈ cs := fun p c hc => wordStarts_mem hc
  have re : ∀ p, ∀ c ∈ wordRests isLetter p cs, c ∈ cs := fun p c hc => wordRests_mem hc
  have el := lower_converts.eq s cs h1 hu
  have eu := upper_converts.eq s cs h1 hu
  have et := title_converts.eq s cs h1 hu
  refine ⟨_, _, _, el, eu, et, ?_, ?_, ?_, ?_, ?_⟩
  · exact (C103_lower_upper _ _ _ _ hs eu el).mpr fun c hc => ⟨(fact c (h2 c hc)).2.2.2.2.2, (fact c (h2 c hc)).1⟩
  · exact (C103_lower_title _ _ _ _ hs et el).mpr fun c hc =>
      ⟨(fact c (h2 c (st _ c hc))).2.2.2.2.2, (fact c (h2 c (st _ c hc))).1⟩
  · exact (C103_upper_title _ _ _ _ hs et eu).mpr fun c hc => (fact c (h2 c (re _ c hc))).2.1
  · exact (C103_title_lower _ _ _ _ hs el et).mpr ⟨fun c hc =>
      ⟨(fact c (h2 c (st _ c hc))).2.1, (fact c (h2 c (st _ c hc))).2.2.1⟩, fun c hc hl => ((fact c (h2 c hc)).2.2.2.2.1 hl).1⟩
  · exact (C103_title_upper _ _ _ _ hs eu et).mpr ⟨fun c hc => (fact c (h2 c (st _ c hc))).2.2.2.1, fun c hc =>
      ⟨(fact c (h2 c (re _ c hc))).2.2.2.2.2, (fact c (h2 c (re _ c hc))).1⟩, fun c hc hl => ((fact c (h2 c hc)).2.2.2.2.1 hl).2⟩

/-! Cases that meet the hypotheses, on both sides of the laws. -/
example : toTitle [0xC3, 0x9F, 0x61, 0xC3, 0x9F] = .ok [0x53, 0x73, 0x61, 0xC3, 0x9F] ∧
    toUpper [0xC3, 0x9F, 0x61, 0xC3, 0x9F] = .ok [0x53, 0x53, 0x41, 0x53, 0x53] ∧
    toLower [0xC3, 0x9F, 0x61, 0xC3, 0x9F] = .ok [0xC3, 0x9F, 0x61, 0xC3, 0x9F] ∧
    toUpper [0x53, 0x73, 0x61, 0xC3, 0x9F] = .ok [0x53, 0x53, 0x41, 0x53, 0x53] ∧
    toLower [0x53, 0x73, 0x61, 0xC3, 0x9F] = .ok [0x73, 0x73, 0x61, 0xC3, 0x9F] ∧
    toTitle [0x53, 0x53, 0x41, 0x53, 0x53] = .ok [0x53, 0x73, 0x61, 0x73, 0x73] := by decide +kernel
/-- a capital Roman numeral is no letter: its title case is itself, that of its lower case another -/
example : toTitle [0xE2, 0x85, 0xA7] = .ok [0xE2, 0x85, 0xA7] ∧ toLower [0xE2, 0x85, 0xA7] = .ok [0xE2, 0x85, 0xB7] ∧
    toTitle [0xE2, 0x85, 0xB7] = .ok [0xE2, 0x85, 0xB7] := by decide +kernel
example : wordStarts isLetter false [0x61, 0x62, 0x20, 0x63, 0x31, 0x64, 0x65] = [0x61, 0x63, 0x64] ∧
    wordRests isLetter false [0x61, 0x62, 0x20, 0x63, 0x31, 0x64, 0x65] = [0x62, 0x65] := by decide +kernel
example : ∀ b ∈ ([0x61, 0x42, 0x20, 0x63] : Str), b.toNat < 0x80 := by decide

end Ystring
