import Verif.Proofs.Text
import Verif.Spec.Template
/-
C91: the template engine of the table generators.
-/
namespace Ystring
open Spec Gen

/-! ### Text -/

theorem splitChar_ne_nil (c : Char) (s : Txt) : splitChar c s ≠ [] := by
  induction s with
  | nil => simp [splitChar]
  | cons x xs ih =>
    unfold splitChar
    split
    · simp
    · split <;> simp_all

theorem splitChar_none {c : Char} {s : Txt} (h : c ∉ s) : splitChar c s = [s] := by
  induction s with
  | nil => rfl
  | cons x xs ih =>
    simp only [List.mem_cons, not_or] at h
    unfold splitChar
    rw [if_neg (Ne.symm h.1), ih h.2]

theorem splitChar_append {c : Char} {s t : Txt} (h : c ∉ s) : splitChar c (s ++ c :: t) = s :: splitChar c t := by
  induction s with
  | nil => simp [splitChar]
  | cons x xs ih =>
    simp only [List.mem_cons, not_or] at h
    rw [List.cons_append, splitChar, if_neg (Ne.symm h.1), ih h.2]

/-- Splitting gives back the lines that have been joined. -/
theorem splitChar_join {c : Char} {ls : List Txt} (h : ∀ l ∈ ls, c ∉ l) (h0 : ls ≠ []) : splitChar c (joinTxt [c] ls) = ls := by
  induction ls with
  | nil => exact absurd rfl h0
  | cons l ls ih =>
    cases ls with
    | nil => exact splitChar_none (h l (by simp))
    | cons m ms =>
      have := ih (fun x hx => h x (List.mem_cons_of_mem _ hx)) (by simp)
      rw [joinTxt, List.append_assoc, List.singleton_append, splitChar_append (h l (by simp)), this]
      simp

theorem breakOn_none {pat s : Txt} (h : ¬ pat <:+: s) : breakOn pat s = none := by
  induction s with
  | nil => rfl
  | cons c cs ih =>
    have h1 : ¬ pat.isPrefixOf (c :: cs) := fun hp => h (List.isPrefixOf_iff_prefix.mp hp).isInfix
    have h2 : ¬ pat <:+: cs := fun hp => h (hp.trans (List.suffix_cons c cs).isInfix)
    rw [breakOn, if_neg h1, ih h2]; rfl

theorem breakOn_open {pre rest : Txt} (h : ¬ (t!"[[[") <:+: pre) (h2 : pre.getLast? ≠ some '[') :
    breakOn (t!"[[[") (pre ++ t!"[[[" ++ rest) = some (pre, rest) := by
  induction pre with
  | nil => simp [breakOn, List.isPrefixOf]
  | cons c cs ih =>
    have hc : ¬ (t!"[[[") <:+: cs := fun hp => h (hp.trans (List.suffix_cons c cs).isInfix)
    have hl : cs.getLast? ≠ some '[' := by
      cases cs with
      | nil => simp
      | cons d ds => simpa [List.getLast?_cons_cons] using h2
    have hp : ¬ (t!"[[[").isPrefixOf (c :: cs ++ t!"[[[" ++ rest) := by
      intro hp
      match cs with
      | [] => simp [List.isPrefixOf] at hp; simp at h2; exact h2 hp.symm
      | [d] => simp [List.isPrefixOf] at hp; simp at h2; exact h2 hp.2.symm
      | d :: e :: ds =>
        simp [List.isPrefixOf] at hp
        apply h
        obtain ⟨e1, e2, e3⟩ := hp
        subst e1 e2 e3
        exact ⟨[], ds, rfl⟩
    rw [List.cons_append, List.cons_append] at *
    rw [breakOn, if_neg hp, ih hc hl]; rfl

theorem breakOn_close {inner post : Txt} (h : ']' ∉ inner) :
    breakOn (t!"]]]") (inner ++ t!"]]]" ++ post) = some (inner, post) := by
  induction inner with
  | nil => simp [breakOn, List.isPrefixOf]
  | cons c cs ih =>
    simp only [List.mem_cons, not_or] at h
    have hp : ¬ (t!"]]]").isPrefixOf (c :: cs ++ t!"]]]" ++ post) := by
      intro hp; simp [List.isPrefixOf] at hp; exact h.1 hp.1
    rw [List.cons_append, List.cons_append] at *
    rw [breakOn, if_neg hp, ih h.2]; rfl

/-! ### Tokens -/

theorem Spec.IsKey.close {key : Txt} (h : IsKey key) : ']' ∉ key := by
  intro hm; rcases h.2.1 _ hm with h | h
  · exact absurd h (by decide)
  · exact absurd h (by decide)

theorem Spec.IsKey.newline {key : Txt} (h : IsKey key) : '\n' ∉ key := by
  intro hm; rcases h.2.1 _ hm with h | h
  · exact absurd h (by decide)
  · exact absurd h (by decide)

theorem isSpace_alphanum {c : Char} (h : c.isAlphanum ∨ c = '_') : isSpace c = false := by
  unfold isSpace
  rcases h with h | rfl
  · simp only [Char.isAlphanum, Char.isAlpha, Char.isUpper, Char.isLower, Char.isDigit, Bool.or_eq_true, Bool.and_eq_true, decide_eq_true_eq,
      UInt32.le_iff_toNat_le, ge_iff_le] at h
    have e : c.val.toNat = c.toNat := rfl
    simp only [e] at h
    simp only [Bool.or_eq_false_iff, Bool.and_eq_false_iff, decide_eq_false_iff_not]
    simp at h
    omega
  · decide

theorem wordsFrom_key {w key : Txt} (h : ∀ c ∈ key, isSpace c = false) : wordsFrom w key = if w ++ key = [] then [] else [w ++ key] := by
  induction key generalizing w with
  | nil => simp [wordsFrom]
  | cons c cs ih =>
    rw [wordsFrom, if_neg (by simp [h c (by simp)]), ih (fun x hx => h x (by simp [hx]))]
    simp

theorem words_if {key : Txt} (h : IsKey key) : words (t!"IF " ++ key) = [t!"IF", key] := by
  have := wordsFrom_key (w := []) (fun c hc => isSpace_alphanum (h.2.1 c hc))
  simp only [List.nil_append, if_neg h.1] at this
  simp [words, wordsFrom, this, isSpace, Char.reduceToNat]

theorem words_elif {key : Txt} (h : IsKey key) : words (t!"ELIF " ++ key) = [t!"ELIF", key] := by
  have := wordsFrom_key (w := []) (fun c hc => isSpace_alphanum (h.2.1 c hc))
  simp only [List.nil_append, if_neg h.1] at this
  simp [words, wordsFrom, this, isSpace, Char.reduceToNat]

theorem tag_if {key post : Txt} (h : IsKey key) : tagToken (t!"IF " ++ key ++ t!"]]]" ++ post) (t!"IF " ++ key) = .ifTok key := by
  unfold tagToken
  rw [if_pos (by simp [List.isPrefixOf]), words_if h]

theorem tag_elif {key post : Txt} (h : IsKey key) : tagToken (t!"ELIF " ++ key ++ t!"]]]" ++ post) (t!"ELIF " ++ key) = .elifTok key := by
  unfold tagToken
  rw [if_neg (by simp [List.isPrefixOf]), if_pos (by simp [List.isPrefixOf]), words_elif h]

theorem prefix_key {pat key post : Txt} (hp : ']' ∉ pat) (h : pat <+: key ++ t!"]]]" ++ post) : pat <+: key := by
  rw [List.append_assoc] at h
  rcases Nat.le_total pat.length key.length with hl | hl
  · exact List.prefix_of_prefix_length_le h (List.prefix_append _ _) hl
  · obtain ⟨t, ht⟩ := List.prefix_of_prefix_length_le (List.prefix_append key _) h hl
    subst ht
    cases t with
    | nil => simp
    | cons c cs =>
      obtain ⟨u, hu⟩ := h
      rw [List.append_assoc, List.append_cancel_left_eq] at hu
      simp at hu
      exact absurd (by simp [hu.1]) hp

theorem tag_expand {key post : Txt} (h : IsKey key) : tagToken (key ++ t!"]]]" ++ post) key = .expand key := by
  have key_no : ∀ c : Char, ¬ (c.isAlphanum ∨ c = '_') → c ∉ key := fun c hc hm => hc (h.2.1 c hm)
  have no : ∀ pat : Txt, ']' ∉ pat → ¬ pat <+: key → ¬ pat.isPrefixOf (key ++ t!"]]]" ++ post) := fun pat h1 h2 h3 =>
    h2 (prefix_key h1 (List.isPrefixOf_iff_prefix.mp h3))
  have sp : ∀ pat : Txt, ' ' ∈ pat → ¬ pat <+: key := fun pat h1 h2 => key_no ' ' (by decide) (h2.subset h1)
  unfold tagToken
  rw [if_neg (no _ (by decide) (sp _ (by decide))), if_neg (no _ (by decide) (sp _ (by decide))),
    if_neg (fun e => key_no '|' (by decide) (by simp [e])), if_neg (fun e => key_no '>' (by decide) (by simp [e])),
    if_neg (fun e => key_no '<' (by decide) (by simp [e])), if_neg (no _ (by decide) h.2.2.1), if_neg (no _ (by decide) h.2.2.2),
    if_neg (no _ (by decide) (sp _ (by decide)))]

/-- The tokens of a line. -/
def lineToks (line : Txt) : List Token := lineTokens (line.length + 1) line

/-- The token for text after the last key, if there is any. -/
def textTok (s : Txt) : List Token := if s ≠ [] then [.text s] else []

theorem toks_text {s : Txt} (h : ¬ (t!"[[[") <:+: s) (fuel : Nat) : lineTokens (fuel + 1) s = textTok s ++ [.newline] := by
  rw [lineTokens, breakOn_none h]; rfl

theorem toks_tag {pre inner post : Txt} {t : Token} (h1 : ¬ (t!"[[[") <:+: pre) (h2 : pre.getLast? ≠ some '[') (h3 : ']' ∉ inner)
    (h4 : tagToken (inner ++ t!"]]]" ++ post) inner = t) (h5 : ¬ (t!"[[[") <:+: post) :
    lineToks (pre ++ t!"[[[" ++ inner ++ t!"]]]" ++ post) = .text pre :: t :: (textTok post ++ [.newline]) := by
  unfold lineToks
  have e : pre ++ t!"[[[" ++ inner ++ t!"]]]" ++ post = pre ++ t!"[[[" ++ (inner ++ t!"]]]" ++ post) := by simp
  rw [e, lineTokens, breakOn_open h1 h2]
  simp only [breakOn_close h3, h4]
  congr 2
  have : (pre ++ t!"[[[" ++ (inner ++ t!"]]]" ++ post)).length = (pre.length + 2 + inner.length + 3 + post.length) + 1 := by simp; omega
  rw [this, toks_text h5]

theorem noOpen_nil : ¬ (t!"[[[") <:+: ([] : Txt) := by simp

theorem toks_expand {pre key post : Txt} (h1 : IsText pre) (h2 : pre.getLast? ≠ some '[') (hk : IsKey key) (h3 : IsText post) :
    lineToks (pre ++ t!"[[[" ++ key ++ t!"]]]" ++ post) = .text pre :: .expand key :: (textTok post ++ [.newline]) :=
  toks_tag h1.2 h2 hk.close (tag_expand hk) h3.2

theorem _root_.Ystring.Spec.IsIndent.blank {ind : Txt} (h : IsIndent ind) : isEmptyOrSpace ind = true := by
  rw [← blankText_eq]; exact h.2

theorem indent_noOpen {ind : Txt} (h : IsIndent ind) : ¬ (t!"[[[") <:+: ind ∧ ind.getLast? ≠ some '[' := by
  have h2 : ∀ c ∈ ind, isSpace c = true := List.all_eq_true.mp h.blank
  have h3 : '[' ∉ ind := fun hm => absurd (h2 _ hm) (by decide)
  exact ⟨fun hi => h3 (hi.subset (by simp)), fun hl => h3 (List.mem_of_getLast? hl)⟩

theorem toks_if {ind key : Txt} (hk : IsIndent ind ∧ IsKey key) : lineToks (ind ++ t!"[[[IF " ++ key ++ t!"]]]") = [.text ind, .ifTok key, .newline] := by
  obtain ⟨hi, hk⟩ := hk
  have := toks_tag (pre := ind) (inner := t!"IF " ++ key) (post := []) (indent_noOpen hi).1 (indent_noOpen hi).2
    (by simp only [List.mem_append, not_or]; exact ⟨by decide, hk.close⟩) (tag_if hk) noOpen_nil
  simpa [textTok] using this

theorem toks_elif {ind key : Txt} (hk : IsIndent ind ∧ IsKey key) : lineToks (ind ++ t!"[[[ELIF " ++ key ++ t!"]]]") = [.text ind, .elifTok key, .newline] := by
  obtain ⟨hi, hk⟩ := hk
  have := toks_tag (pre := ind) (inner := t!"ELIF " ++ key) (post := []) (indent_noOpen hi).1 (indent_noOpen hi).2
    (by simp only [List.mem_append, not_or]; exact ⟨by decide, hk.close⟩) (tag_elif hk) noOpen_nil
  simpa [textTok] using this

theorem toks_else {ind : Txt} (hi : IsIndent ind) : lineToks (ind ++ t!"[[[ELSE]]]") = [.text ind, .elseTok, .newline] := by
  have := toks_tag (pre := ind) (inner := t!"ELSE") (post := []) (indent_noOpen hi).1 (indent_noOpen hi).2 (by decide) (show _ = Token.elseTok by decide +kernel) noOpen_nil
  simpa [textTok] using this

theorem toks_endif {ind : Txt} (hi : IsIndent ind) : lineToks (ind ++ t!"[[[ENDIF]]]") = [.text ind, .endif, .newline] := by
  have := toks_tag (pre := ind) (inner := t!"ENDIF") (post := []) (indent_noOpen hi).1 (indent_noOpen hi).2 (by decide) (show _ = Token.endif by decide +kernel) noOpen_nil
  simpa [textTok] using this

/-! ### The processor -/

theorem addText_line (p : Proc) {s : Txt} (h : '\n' ∉ s) : p.addText s = { p with cur := p.cur ++ s, column := p.column + s.length } := by
  unfold Proc.addText
  rw [splitChar_none h]; rfl

theorem run_cons {p q : Proc} {i j : Bool} {t : Token} (h : p.step i t = .ok (q, j)) (ts : List Token) : p.run i (t :: ts) = q.run j ts := by
  rw [Proc.run, h]; rfl

theorem run_error {p : Proc} {i : Bool} {t : Token} {e : PyErr} (h : p.step i t = .error e) (ts : List Token) : p.run i (t :: ts) = .error e := by
  rw [Proc.run, h]; rfl

/-- The state between two lines of an active part of the template. -/
structure Clean (p : Proc) : Prop where
  cur : p.cur = []
  top : p.top = .active

theorem step_text {p : Proc} {s : Txt} (i : Bool) (hp : p.top = .active) (h : '\n' ∉ s) :
    p.step i (.text s) = .ok ({ p with cur := p.cur ++ s, column := p.column + s.length }, false) := by
  simp [Proc.step, hp, addText_line p h]

theorem step_newline {p : Proc} (hp : p.top = .active) :
    p.step false .newline = .ok ({ p with lines := p.lines ++ [rstrip p.cur], cur := [], column := 0 }, false) := by
  simp [Proc.step, Proc.handleNewline, hp]

theorem step_ignored {p : Proc} (hp : isEmptyOrSpace p.cur) : p.step true .newline = .ok ({ p with cur := [] }, false) := by
  simp [Proc.step, hp]

/-- The end of a line. -/
theorem run_end {p : Proc} (i : Bool) (hp : p.top = .active) {post : Txt} (h : IsText post) (hi : i = true → post ≠ []) (ts : List Token) :
    p.run i (textTok post ++ .newline :: ts) =
      ({ p with lines := p.lines ++ [rstrip (p.cur ++ post)], cur := [], column := 0 } : Proc).run false ts := by
  unfold textTok
  by_cases h0 : post = []
  · subst h0
    have : i = false := by cases i; rfl; exact absurd rfl (hi rfl)
    subst this
    simp only [ne_eq, not_true, if_false, List.nil_append]
    rw [run_cons (step_newline hp), List.append_nil]
  · rw [if_pos h0, List.singleton_append, run_cons (step_text i hp h.1), run_cons (step_newline (by exact hp))]

theorem expandKey_eq {p : Proc} {key : Txt} (h : IsKey key) : p.expandKey key = valueOf p.dict key := by
  have : breakOn ['('] key = none := by
    apply breakOn_none
    intro hi
    have := hi.subset (List.mem_singleton.mpr rfl)
    rcases h.2.1 _ this with h | h <;> exact absurd h (by decide)
  unfold Proc.expandKey splitKey valueOf
  rw [this]; rfl

theorem intText_newline (n : Int) : '\n' ∉ intText n := by
  unfold intText
  intro h
  have key : ∀ m : Nat, '\n' ∉ (toString m).toList := by
    intro m h
    have : (toString m).toList = Nat.toDigits 10 m := by simp [toString, Nat.repr]
    rw [this] at h
    have := Nat.isDigit_of_mem_toDigits (by decide) (by decide) h
    revert this; decide
  cases n with
  | ofNat m => exact key m (by simpa [toString, Int.repr] using h)
  | negSucc m =>
    have e : (toString (Int.negSucc m)) = "-" ++ toString (m + 1) := by simp [toString, Int.repr]
    rw [e, String.toList_append, List.mem_append] at h
    rcases h with h | h
    · revert h; decide
    · exact key _ h

/-- The values have no newlines. -/
def Flat (d : List (Txt × Val)) : Prop := ∀ key v, d.lookup key = some v → ∀ l ∈ block v, '\n' ∉ l

theorem run_expand {p : Proc} (hp : Clean p) {pre key post : Txt} (h1 : IsText pre) (hk : IsKey key) (h3 : IsText post) (hd : Flat p.dict)
    (ts : List Token) :
    p.run false (.text pre :: .expand key :: (textTok post ++ .newline :: ts)) =
      match valueOf p.dict key with
      | .error e => .error e
      | .ok v => ({ p with lines := p.lines ++ (expandLine p.column pre (block v) post).1, column := (expandLine p.column pre (block v) post).2 } : Proc).run false ts := by
  obtain ⟨hcur, htop⟩ := hp
  rw [run_cons (show p.step false (.text pre) = .ok ({ p with cur := pre, column := p.column + pre.length }, false) by
    rw [step_text false htop h1.1, hcur]; rfl)]
  generalize hq : ({ p with cur := pre, column := p.column + pre.length } : Proc) = q
  have qtop : q.top = .active := by rw [← hq]; exact htop
  have qd : q.dict = p.dict := by rw [← hq]
  have hstep : q.step false (.expand key) = (do let (p, b) ← q.handleExpand key; .ok (p, !b && isEmptyOrSpace p.cur)) := by
    simp [Proc.step, qtop]
  have hexp := expandKey_eq (p := q) hk
  rw [qd] at hexp
  cases hv : valueOf p.dict key with
  | error e =>
    rw [hv] at hexp
    apply run_error
    rw [hstep]; unfold Proc.handleExpand; rw [hexp]; rfl
  | ok v =>
    rw [hv] at hexp
    have hflat : ∀ l ∈ block v, '\n' ∉ l := by
      unfold valueOf at hv
      cases hl : p.dict.lookup key with
      | none => rw [hl] at hv; cases hv
      | some w => rw [hl] at hv; cases hv; exact hd key v hl
    have none_case : block v = [] → q.step false (.expand key) = .ok (q, isEmptyOrSpace q.cur) →
        q.run false (.expand key :: (textTok post ++ .newline :: ts)) =
          ({ p with lines := p.lines ++ (expandLine p.column pre (block v) post).1, column := (expandLine p.column pre (block v) post).2 } : Proc).run false ts := by
      intro hb hs
      rw [run_cons hs, hb]
      unfold expandLine
      simp only [blankText_eq, cutBlanks_eq]
      by_cases hc : isEmptyOrSpace pre ∧ post = []
      · rw [if_pos hc]
        have : isEmptyOrSpace q.cur = true := by rw [← hq]; exact hc.1
        rw [this, hc.2]
        simp only [textTok, ne_eq, not_true, if_false, List.nil_append]
        rw [run_cons (step_ignored this), ← hq]
        simp [hcur]
      · rw [if_neg hc, run_end _ qtop h3, ← hq]
        · simp [hcur]
        · intro hi e
          exact hc ⟨by rw [← hq] at hi; exact hi, e⟩
    have one_case : ∀ l, block v = [l] → (∃ c, q.step false (.expand key) = .ok ({ q with cur := q.cur ++ l, column := c }, false)) →
        q.run false (.expand key :: (textTok post ++ .newline :: ts)) =
          ({ p with lines := p.lines ++ (expandLine p.column pre (block v) post).1, column := (expandLine p.column pre (block v) post).2 } : Proc).run false ts := by
      intro l hb ⟨c, hs⟩
      rw [run_cons hs, hb, run_end _ (by exact qtop) h3 (by simp), ← hq]
      simp [expandLine, hcur]
    have text_case : ∀ l, block v = [l] → q.handleExpand key = .ok (q.addText l, true) →
        q.run false (.expand key :: (textTok post ++ .newline :: ts)) =
          ({ p with lines := p.lines ++ (expandLine p.column pre (block v) post).1, column := (expandLine p.column pre (block v) post).2 } : Proc).run false ts := by
      intro l hb hh
      refine one_case l hb ⟨q.column + l.length, ?_⟩
      rw [hstep, hh, addText_line q (hflat l (by simp [hb]))]; rfl
    cases v with
    | none => exact none_case rfl (by rw [hstep]; unfold Proc.handleExpand; rw [hexp]; rfl)
    | str s =>
      by_cases h0 : s = []
      · subst h0
        exact none_case rfl (by rw [hstep]; unfold Proc.handleExpand; rw [hexp]; rfl)
      · exact text_case s (by simp [block, h0]) (by unfold Proc.handleExpand; rw [hexp]; simp [bind, Except.bind, h0])
    | int n => exact text_case _ (by rw [block, decimal_eq]) (by unfold Proc.handleExpand; rw [hexp]; rfl)
    | bool b => exact text_case _ rfl (by unfold Proc.handleExpand; rw [hexp]; rfl)
    | list ls =>
      have hh : ls ≠ [] → q.handleExpand key = .ok (q.addLines ls, true) := by
        intro h; unfold Proc.handleExpand; rw [hexp]; simp [bind, Except.bind, h]
      match ls, hh, hflat with
      | [], _, _ => exact none_case rfl (by rw [hstep]; unfold Proc.handleExpand; rw [hexp]; rfl)
      | [l], hh, _ => exact one_case l rfl ⟨q.column, by rw [hstep, hh (by simp)]; rfl⟩
      | l :: m :: ms, hh, hflat =>
        have hlast : '\n' ∉ (m :: ms).getLastD [] := by
          apply hflat
          simp only [block]
          rw [List.getLastD_eq_getLast?, List.getLast?_eq_some_getLast (by simp), Option.getD_some]
          exact List.mem_cons_of_mem _ (List.getLast_mem _)
        have hal : '\n' ∉ ({ q with cur := q.cur ++ l } : Proc).alignment := by
          unfold Proc.alignment Proc.indentation
          intro h
          rw [List.mem_append] at h
          rcases h with h | h
          · split at h
            · simp at h
            · have := List.all_eq_true.mp List.all_takeWhile _ h
              revert this; decide
          · have := List.eq_of_mem_replicate h
            revert this; decide
        have hs : q.step false (.expand key) = .ok (q.addLines (l :: m :: ms), false) := by rw [hstep, hh (by simp)]; rfl
        rw [run_cons hs]
        have : q.addLines (l :: m :: ms) =
            { q with
              lines := q.lines ++ [q.cur ++ l] ++ (m :: ms).dropLast.map (fun x => if x ≠ [] then ({ q with cur := q.cur ++ l } : Proc).alignment ++ x else [])
              cur := ({ q with cur := q.cur ++ l } : Proc).alignment ++ (m :: ms).getLastD []
              column := (({ q with cur := q.cur ++ l } : Proc).alignment ++ (m :: ms).getLastD []).length } := by
          unfold Proc.addLines
          simp only [if_neg (show ¬ (m :: ms = []) by simp)]
          rw [addText_line _ (by rw [List.mem_append]; rintro (h | h); exact hal h; exact hlast h)]
          simp
        rw [this, run_end _ (by exact qtop) h3 (by simp), ← hq]
        have hm : ({ p with cur := pre ++ l, column := p.column + pre.length } : Proc).alignment = margin (pre ++ l) (p.column + pre.length) := rfl
        have hmap : ∀ a : Txt, (fun x : Txt => if x ≠ [] then a ++ x else []) = (fun x => if x = [] then [] else a ++ x) := by
          intro a; funext x; by_cases h : x = [] <;> simp [h]
        simp only [hm, hmap, block, expandLine, cutBlanks_eq, hcur, List.append_assoc, List.cons_append, List.nil_append]

/-! ### Whole templates -/

/-- The tokens of some lines. -/
def toks (ls : List Txt) : List Token := ls.flatMap lineToks

theorem toks_cons (l : Txt) (ls : List Txt) : toks (l :: ls) = lineToks l ++ toks ls := rfl
theorem toks_append (ls ms : List Txt) : toks (ls ++ ms) = toks ls ++ toks ms := List.flatMap_append

/-- A line in a part of the template that is skipped. -/
theorem run_skip_line {p : Proc} (hp : p.top ≠ .active) {l : List Token} (h : ∀ t ∈ l, (∃ s, t = .text s) ∨ (∃ k, t = .expand k) ∨ t = .newline)
    (ts : List Token) : p.run false (l ++ ts) = p.run false ts := by
  induction l with
  | nil => rfl
  | cons t l ih =>
    have ih := ih (fun t ht => h t (List.mem_cons_of_mem _ ht))
    rw [List.cons_append]
    have hs : p.step false t = .ok (p, false) := by
      have : p.top = .inactive ∨ p.top = .done := by cases h : p.top <;> simp_all
      rcases h t (by simp) with ⟨s, rfl⟩ | ⟨k, rfl⟩ | rfl <;> rcases this with e | e <;> simp [Proc.step, Proc.handleNewline, e]
    rw [run_cons hs, ih]

/-- The effect of a directive on a line of its own, in an active part of the template. -/
theorem run_directive {p : Proc} (hp : Clean p) {ind : Txt} (hi : IsIndent ind) {t : Token} {sc : List Scope}
    (ht : ({ p with cur := ind, column := p.column + ind.length } : Proc).step false t =
      .ok ({ p with cur := ind, column := p.column + ind.length, scope := sc }, true)) (ts : List Token) :
    p.run false (.text ind :: t :: .newline :: ts) = ({ p with column := p.column + ind.length, scope := sc } : Proc).run false ts := by
  have h1 : p.step false (.text ind) = .ok ({ p with cur := ind, column := p.column + ind.length }, false) := by
    rw [step_text false hp.top hi.1, hp.cur]; rfl
  rw [run_cons h1, run_cons ht, run_cons (step_ignored (by exact hi.blank))]
  congr 1
  obtain ⟨hc, -⟩ := hp
  cases p; simp_all

theorem step_text_skip {p : Proc} (hp : p.top ≠ .active) (s : Txt) : p.step false (.text s) = .ok (p, false) := by
  have : p.top = .inactive ∨ p.top = .done := by cases h : p.top <;> simp_all
  rcases this with e | e <;> simp [Proc.step, e]

/-- The effect of a directive on a line of its own, in another part. -/
theorem run_directive' {p q : Proc} (hp : p.top ≠ .active) (hq : q.cur = []) {t : Token} (ind : Txt) (ht : p.step false t = .ok (q, true)) (ts : List Token) :
    p.run false (.text ind :: t :: .newline :: ts) = q.run false ts := by
  rw [run_cons (step_text_skip hp ind), run_cons ht, run_cons (step_ignored (by simp [hq, isEmptyOrSpace]))]
  congr 1
  cases q; simp_all

/-- A directive that is skipped. -/
theorem run_directive_skip {p : Proc} (hp : p.top = .done) {t : Token} (ind : Txt) (ht : p.step false t = .ok (p, false)) (ts : List Token) :
    p.run false (.text ind :: t :: .newline :: ts) = p.run false ts := by
  have h2 : p.step false .newline = .ok (p, false) := by simp [Proc.step, Proc.handleNewline, hp]
  rw [run_cons (step_text_skip (by simp [hp]) ind), run_cons ht, run_cons h2]

theorem step_if_skip {p : Proc} (hp : p.cur = []) (ht : p.top ≠ .active) (key : Txt) :
    p.step false (.ifTok key) = .ok ({ p with scope := .done :: p.scope }, true) := by
  simp [Proc.step, Proc.handleIf, ht, hp, isEmptyOrSpace, bind, Except.bind]

theorem step_endif {p : Proc} (hp : isEmptyOrSpace p.cur = true) {x : Scope} {xs : List Scope} (hs : p.scope = x :: xs) (h0 : xs ≠ []) :
    p.step false .endif = .ok ({ p with scope := xs }, true) := by
  have : ¬ (xs.length = 0) := by simpa using h0
  simp [Proc.step, Proc.handleEndif, hs, this, hp, bind, Except.bind]

theorem blank_nil {p : Proc} (h : p.cur = []) : isEmptyOrSpace p.cur = true := by simp [h, isEmptyOrSpace]

theorem textToks (s : Txt) (post : List Token) (h : ∀ t ∈ post, (∃ s, t = .text s) ∨ (∃ k, t = .expand k) ∨ t = .newline) :
    ∀ t ∈ textTok s ++ post, (∃ s, t = .text s) ∨ (∃ k, t = .expand k) ∨ t = .newline := by
  intro t ht
  rw [List.mem_append] at ht
  rcases ht with ht | ht
  · unfold textTok at ht; split at ht <;> simp_all
  · exact h t ht

mutual
theorem run_skip : (T : Tmpl) → T.Good → (p : Proc) → p.cur = [] → p.top ≠ .active → p.scope ≠ [] → ∀ ts,
    p.run false (toks T.render ++ ts) = p.run false ts
  | .nil, _, p, _, _, _, ts => rfl
  | .plain text rest, h, p, hc, ht, hs, ts => by
    rw [Tmpl.render, toks_cons, lineToks, toks_text h.1.2, List.append_assoc,
      run_skip_line ht (textToks _ _ (by simp)), run_skip rest h.2 p hc ht hs]
  | .expand pre key post rest, h, p, hc, ht, hs, ts => by
    rw [Tmpl.render, toks_cons, toks_expand h.1.1 h.1.2 h.2.1 h.2.2.1, List.append_assoc, run_skip_line ht, run_skip rest h.2.2.2 p hc ht hs]
    intro t ht
    rcases List.mem_cons.mp ht with rfl | ht
    · exact .inl ⟨_, rfl⟩
    rcases List.mem_cons.mp ht with rfl | ht
    · exact .inr (.inl ⟨_, rfl⟩)
    exact textToks _ _ (by simp) t ht
  | .cond ind key body more rest, h, p, hc, ht, hs, ts => by
    rw [Tmpl.render, toks_cons, toks_if h.1, toks_append, toks_append]
    simp only [List.cons_append, List.nil_append, List.append_assoc]
    rw [run_directive' ht (by exact hc) ind (step_if_skip hc ht key), run_skip body h.2.1 { p with scope := .done :: p.scope } hc (by simp [Proc.top]) (by simp),
      run_done more h.2.2.1 { p with scope := .done :: p.scope } hc rfl hs, run_skip rest h.2.2.2 p hc ht hs]

/-- The other branches, if none of them is taken because one has been or because the whole block is skipped. -/
theorem run_done : (C : Clauses) → C.Good → (p : Proc) → p.cur = [] → {xs : List Scope} → p.scope = .done :: xs → xs ≠ [] → ∀ ts,
    p.run false (toks C.render ++ ts) = ({ p with scope := xs } : Proc).run false ts
  | .endif ind, h, p, hc, xs, hs, h0, ts => by
    have ht : p.top = .done := by simp [Proc.top, hs]
    rw [Clauses.render, toks_cons, toks_endif h]
    exact run_directive' (by simp [ht]) (by exact hc) ind (step_endif (blank_nil hc) hs h0) ts
  | .els ind body ind', h, p, hc, xs, hs, h0, ts => by
    have ht : p.top = .done := by simp [Proc.top, hs]
    rw [Clauses.render, toks_cons, toks_else h.1, toks_append]
    simp only [List.cons_append, List.nil_append, List.append_assoc]
    rw [run_directive_skip ht ind (by simp [Proc.step, ht]), run_skip body h.2.1 p hc (by simp [ht]) (by simp [hs]), toks_cons, toks_endif h.2.2]
    exact run_directive' (by simp [ht]) (by exact hc) ind' (step_endif (blank_nil hc) hs h0) ts
  | .elif ind key body more, h, p, hc, xs, hs, h0, ts => by
    have ht : p.top = .done := by simp [Proc.top, hs]
    rw [Clauses.render, toks_cons, toks_elif h.1, toks_append]
    simp only [List.cons_append, List.nil_append, List.append_assoc]
    rw [run_directive_skip ht ind (by simp [Proc.step, ht]), run_skip body h.2.1 p hc (by simp [ht]) (by simp [hs]), run_done more h.2.2 p hc hs h0]
end

/-- The other branches, after the branch that is taken. -/
theorem run_taken : (C : Clauses) → C.Good → (p : Proc) → p.cur = [] → {xs : List Scope} → p.scope = .active :: xs → xs ≠ [] → ∀ ts,
    p.run false (toks C.render ++ ts) = ({ p with scope := xs, column := p.column + C.indent.length } : Proc).run false ts
  | .endif ind, h, p, hc, xs, hs, h0, ts => by
    rw [Clauses.render, toks_cons, toks_endif h]
    exact run_directive ⟨hc, by simp [Proc.top, hs]⟩ h
      (step_endif (p := { p with cur := ind, column := p.column + ind.length }) h.blank hs h0) ts
  | .els ind body ind', h, p, hc, xs, hs, h0, ts => by
    have ht : p.top = .active := by simp [Proc.top, hs]
    have hl : ¬ xs.length = 0 := by simpa using h0
    have hi := h.1.blank
    have hstep : ({ p with cur := ind, column := p.column + ind.length } : Proc).step false .elseTok =
        .ok ({ p with cur := ind, column := p.column + ind.length, scope := .done :: xs }, true) := by
      simp [Proc.step, Proc.handleElse, Proc.top, hs, hl, hi, bind, Except.bind]
    rw [Clauses.render, toks_cons, toks_else h.1, toks_append]
    simp only [List.cons_append, List.nil_append, List.append_assoc]
    rw [run_directive ⟨hc, ht⟩ h.1 hstep, run_skip body h.2.1 { p with column := p.column + ind.length, scope := .done :: xs } hc (by simp [Proc.top]) (by simp),
      toks_cons, toks_endif h.2.2]
    exact run_directive' (by simp [Proc.top]) (by exact hc) ind'
      (step_endif (p := { p with column := p.column + ind.length, scope := .done :: xs }) (blank_nil hc) rfl h0) ts
  | .elif ind key body more, h, p, hc, xs, hs, h0, ts => by
    have ht : p.top = .active := by simp [Proc.top, hs]
    have hl : ¬ xs.length = 0 := by simpa using h0
    have hi := h.1.1.blank
    have hstep : ({ p with cur := ind, column := p.column + ind.length } : Proc).step false (.elifTok key) =
        .ok ({ p with cur := ind, column := p.column + ind.length, scope := .done :: xs }, true) := by
      simp [Proc.step, Proc.handleElif, Proc.top, hs, hl, hi, bind, Except.bind]
    rw [Clauses.render, toks_cons, toks_elif h.1, toks_append]
    simp only [List.cons_append, List.nil_append, List.append_assoc]
    rw [run_directive ⟨hc, ht⟩ h.1.1 hstep,
      run_skip body h.2.1 { p with column := p.column + ind.length, scope := .done :: xs } hc (by simp [Proc.top]) (by simp),
      run_done more h.2.2 { p with column := p.column + ind.length, scope := .done :: xs } hc rfl h0]
    rfl

/-- The state after some lines have been made. -/
def Gen.Proc.after (p : Proc) (r : List Txt × Nat) : Proc := { p with lines := p.lines ++ r.1, column := r.2 }

/-- The other branches of a block in an inactive scope, or the rest of the template, after some lines. -/
def thenRun (p : Proc) (r : Except PyErr (List Txt × Nat)) (ts : List Token) : Except PyErr Proc :=
  match r with
  | .error e => .error e
  | .ok r => (p.after r).run false ts

theorem after_after (p : Proc) (r q : List Txt × Nat) : (p.after r).after q = p.after (r.1 ++ q.1, q.2) := by
  simp [Proc.after]

theorem step_if {p : Proc} (hc : isEmptyOrSpace p.cur = true) (ht : p.top = .active) {key : Txt} (hk : IsKey key) :
    p.step false (.ifTok key) = match valueOf p.dict key with
      | .error e => .error e
      | .ok v => .ok ({ p with scope := (if v.truthy then .active else .inactive) :: p.scope }, true) := by
  have := expandKey_eq (p := p) hk
  cases hv : valueOf p.dict key with
  | error e => rw [hv] at this; simp [Proc.step, Proc.handleIf, ht, this, bind, Except.bind]
  | ok v =>
    rw [hv] at this
    by_cases h : v.truthy <;> simp [Proc.step, Proc.handleIf, ht, this, bind, Except.bind, h, hc]

theorem step_elif {p : Proc} (hc : p.cur = []) {xs : List Scope} (hs : p.scope = .inactive :: xs) (h0 : xs ≠ []) {key : Txt} (hk : IsKey key) :
    p.step false (.elifTok key) = match valueOf p.dict key with
      | .error e => .error e
      | .ok v => .ok ({ p with scope := (if v.truthy then .active else .inactive) :: xs }, true) := by
  have ht : p.top = .inactive := by simp [Proc.top, hs]
  have hl : ¬ xs.length = 0 := by simpa using h0
  have := expandKey_eq (p := p) hk
  cases hv : valueOf p.dict key with
  | error e => rw [hv] at this; simp [Proc.step, Proc.handleElif, ht, hs, hl, this, bind, Except.bind]
  | ok v =>
    rw [hv] at this
    by_cases h : v.truthy
    · simp [Proc.step, Proc.handleElif, ht, hs, hl, this, bind, Except.bind, h, hc, isEmptyOrSpace]
    · have e : ({ p with scope := .inactive :: xs } : Proc) = p := by rw [← hs]
      simp only [h, if_false, Bool.false_eq_true]
      rw [e]
      simp [Proc.step, Proc.handleElif, ht, hs, hl, this, bind, Except.bind, h, hc, isEmptyOrSpace]

theorem run_directive_error {p : Proc} (hp : Clean p) {ind : Txt} (hi : IsIndent ind) {t : Token} {e : PyErr}
    (ht : ({ p with cur := ind, column := p.column + ind.length } : Proc).step false t = .error e) (ts : List Token) :
    p.run false (.text ind :: t :: .newline :: ts) = .error e := by
  have h1 : p.step false (.text ind) = .ok ({ p with cur := ind, column := p.column + ind.length }, false) := by
    rw [step_text false hp.top hi.1, hp.cur]; rfl
  rw [run_cons h1, run_error ht]

theorem run_directive_error' {p : Proc} (hp : p.top ≠ .active) {ind : Txt} {t : Token} {e : PyErr} (ht : p.step false t = .error e) (ts : List Token) :
    p.run false (.text ind :: t :: .newline :: ts) = .error e := by
  rw [run_cons (step_text_skip hp ind), run_error ht]

mutual
theorem run_tmpl : (T : Tmpl) → T.Good → (p : Proc) → Clean p → p.scope ≠ [] → Flat p.dict → ∀ ts,
    p.run false (toks T.render ++ ts) = thenRun p (T.eval p.dict p.column) ts
  | .nil, _, p, _, _, _, ts => by
    simp [Tmpl.render, toks, Tmpl.eval, thenRun, Proc.after]
  | .plain text rest, h, p, hp, hs, hd, ts => by
    rw [Tmpl.render, toks_cons, lineToks, toks_text h.1.2, List.append_assoc, List.append_assoc, List.singleton_append, run_end false hp.top h.1 (by simp),
      run_tmpl rest h.2 { p with lines := p.lines ++ [rstrip (p.cur ++ text)], cur := [], column := 0 } ⟨rfl, hp.top⟩ hs hd, Tmpl.eval]
    simp only [hp.cur]
    cases rest.eval p.dict 0 with
    | error e => rfl
    | ok r => simp [thenRun, bind, Except.bind, Proc.after, hp.cur]
  | .expand pre key post rest, h, p, hp, hs, hd, ts => by
    rw [Tmpl.render, toks_cons, toks_expand h.1.1 h.1.2 h.2.1 h.2.2.1]
    simp only [List.cons_append, List.append_assoc, List.nil_append]
    rw [run_expand hp h.1.1 h.2.1 h.2.2.1 hd, Tmpl.eval]
    cases valueOf p.dict key with
    | error e => rfl
    | ok v =>
      simp only
      rw [run_tmpl rest h.2.2.2 { p with lines := p.lines ++ (expandLine p.column pre (block v) post).1, column := (expandLine p.column pre (block v) post).2 }
        ⟨hp.cur, hp.top⟩ hs hd]
      simp only [bind, Except.bind]
      cases rest.eval p.dict (expandLine p.column pre (block v) post).2 with
      | error e => rfl
      | ok r => simp [thenRun, Proc.after]
  | .cond ind key body more rest, h, p, hp, hs, hd, ts => by
    rw [Tmpl.render, toks_cons, toks_if h.1, toks_append, toks_append]
    simp only [List.cons_append, List.nil_append, List.append_assoc]
    have hstep := step_if (p := { p with cur := ind, column := p.column + ind.length }) h.1.1.blank hp.top h.1.2
    rw [Tmpl.eval]
    simp only [isTrue_eq]
    cases hv : valueOf p.dict key with
    | error e =>
      simp only [hv] at hstep
      rw [run_directive_error hp h.1.1 hstep]; rfl
    | ok v =>
      simp only [hv] at hstep
      rw [run_directive hp h.1.1 hstep]
      by_cases hb : v.truthy
      · simp only [hb, if_true]
        rw [run_tmpl body h.2.1 { p with column := p.column + ind.length, scope := .active :: p.scope } ⟨hp.cur, rfl⟩ (by simp) hd]
        simp only [bind, Except.bind, hb, if_true]
        cases body.eval p.dict (p.column + ind.length) with
        | error e => rfl
        | ok r =>
          simp only [thenRun, Except.map]
          rw [run_taken more h.2.2.1 (({ p with column := p.column + ind.length, scope := .active :: p.scope } : Proc).after r) hp.cur rfl hs]
          have : ({ (({ p with column := p.column + ind.length, scope := .active :: p.scope } : Proc).after r) with
              scope := p.scope, column := (({ p with column := p.column + ind.length, scope := .active :: p.scope } : Proc).after r).column + more.indent.length } : Proc) =
              p.after (displaced more.indent r) := rfl
          rw [this, run_tmpl rest h.2.2.2 (p.after (displaced more.indent r)) ⟨hp.cur, hp.top⟩ hs hd]
          show thenRun (p.after (displaced more.indent r)) (rest.eval p.dict (displaced more.indent r).2) ts = _
          cases rest.eval p.dict (displaced more.indent r).2 with
          | error e => rfl
          | ok q => simp [thenRun, after_after]
      · simp only [hb, Bool.false_eq_true, if_false]
        rw [run_skip body h.2.1 { p with column := p.column + ind.length, scope := .inactive :: p.scope } hp.cur (by simp [Proc.top]) (by simp),
          run_clauses more h.2.2.1 { p with column := p.column + ind.length, scope := .inactive :: p.scope } hp.cur rfl hs hp.top hd]
        simp only [bind, Except.bind, hb]
        show thenRun { p with column := p.column + ind.length } (more.eval p.dict (p.column + ind.length)) _ = _
        simp only [Bool.false_eq_true, if_false]
        cases more.eval p.dict (p.column + ind.length) with
        | error e => rfl
        | ok r =>
          simp only [thenRun]
          show (p.after r).run false _ = _
          rw [run_tmpl rest h.2.2.2 (p.after r) ⟨hp.cur, hp.top⟩ hs hd]
          show thenRun (p.after r) (rest.eval p.dict r.2) ts = _
          cases rest.eval p.dict r.2 with
          | error e => rfl
          | ok q => simp [thenRun, after_after]

/-- The other branches, if none of the branches before them has been taken. -/
theorem run_clauses : (C : Clauses) → C.Good → (p : Proc) → p.cur = [] → {xs : List Scope} → p.scope = .inactive :: xs → xs ≠ [] →
    ({ p with scope := xs } : Proc).top = .active → Flat p.dict → ∀ ts,
    p.run false (toks C.render ++ ts) = thenRun { p with scope := xs } (C.eval p.dict p.column) ts
  | .endif ind, h, p, hc, xs, hs, h0, ha, hd, ts => by
    have ht : p.top = .inactive := by simp [Proc.top, hs]
    rw [Clauses.render, toks_cons, toks_endif h]
    simp only [Clauses.eval, thenRun, Proc.after, List.append_nil]
    exact run_directive' (by simp [ht]) (by exact hc) ind (step_endif (blank_nil hc) hs h0) ts
  | .els ind body ind', h, p, hc, xs, hs, h0, ha, hd, ts => by
    have ht : p.top = .inactive := by simp [Proc.top, hs]
    have hl : ¬ xs.length = 0 := by simpa using h0
    have hstep : p.step false .elseTok = .ok ({ p with scope := .active :: xs }, true) := by
      simp [Proc.step, Proc.handleElse, ht, hs, hl, hc, isEmptyOrSpace, bind, Except.bind]
    rw [Clauses.render, toks_cons, toks_else h.1, toks_append]
    simp only [List.cons_append, List.nil_append, List.append_assoc]
    rw [run_directive' (by simp [ht]) (by exact hc) ind hstep, run_tmpl body h.2.1 { p with scope := .active :: xs } ⟨hc, rfl⟩ (by simp) hd, Clauses.eval]
    show thenRun { p with scope := .active :: xs } (body.eval p.dict p.column) _ = _
    cases body.eval p.dict p.column with
    | error e => rfl
    | ok r =>
      simp only [thenRun, toks_cons, toks_endif h.2.2, Except.map]
      exact run_directive (p := ({ p with scope := .active :: xs } : Proc).after r) ⟨hc, rfl⟩ h.2.2
        (step_endif (p := { ({ p with scope := .active :: xs } : Proc).after r with cur := ind', column := (({ p with scope := .active :: xs } : Proc).after r).column + ind'.length })
          h.2.2.blank rfl h0) ts
  | .elif ind key body more, h, p, hc, xs, hs, h0, ha, hd, ts => by
    have ht : p.top = .inactive := by simp [Proc.top, hs]
    rw [Clauses.render, toks_cons, toks_elif h.1, toks_append]
    simp only [List.cons_append, List.nil_append, List.append_assoc]
    have hstep := step_elif hc hs h0 h.1.2
    rw [Clauses.eval]
    simp only [isTrue_eq]
    cases hv : valueOf p.dict key with
    | error e =>
      rw [hv] at hstep
      rw [run_directive_error' (by simp [ht]) hstep]; rfl
    | ok v =>
      rw [hv] at hstep
      simp only at hstep
      rw [run_directive' (by simp [ht]) (by exact hc) ind hstep]
      by_cases hb : v.truthy
      · simp only [hb, if_true]
        rw [run_tmpl body h.2.1 { p with scope := .active :: xs } ⟨hc, rfl⟩ (by simp) hd]
        simp only [bind, Except.bind, hb, if_true]
        cases body.eval p.dict p.column with
        | error e => rfl
        | ok r =>
          simp only [thenRun]
          rw [run_taken more h.2.2 (({ p with scope := .active :: xs } : Proc).after r) hc rfl h0]
          rfl
      · simp only [hb, Bool.false_eq_true, if_false]
        rw [run_skip body h.2.1 { p with scope := .inactive :: xs } hc (by simp [Proc.top]) (by simp), run_clauses more h.2.2 { p with scope := .inactive :: xs } hc rfl h0 ha hd]
        simp only [bind, Except.bind, hb, Bool.false_eq_true, if_false]
end

mutual
theorem render_newline : (T : Tmpl) → T.Good → ∀ l ∈ T.render, '\n' ∉ l
  | .nil, _ => by simp [Tmpl.render]
  | .plain text rest, h => by
    intro l hl
    rw [Tmpl.render, List.mem_cons] at hl
    rcases hl with rfl | hl
    · exact h.1.1
    · exact render_newline rest h.2 l hl
  | .expand pre key post rest, h => by
    intro l hl
    rw [Tmpl.render, List.mem_cons] at hl
    rcases hl with rfl | hl
    · simp only [List.mem_append, not_or]
      exact ⟨⟨⟨⟨h.1.1.1, by decide⟩, h.2.1.newline⟩, by decide⟩, h.2.2.1.1⟩
    · exact render_newline rest h.2.2.2 l hl
  | .cond ind key body more rest, h => by
    intro l hl
    rw [Tmpl.render, List.mem_cons, List.mem_append, List.mem_append] at hl
    rcases hl with rfl | hl | hl | hl
    · simp only [List.mem_append, not_or]
      exact ⟨⟨⟨h.1.1.1, by decide⟩, h.1.2.newline⟩, by decide⟩
    · exact render_newline body h.2.1 l hl
    · exact clauses_newline more h.2.2.1 l hl
    · exact render_newline rest h.2.2.2 l hl

theorem clauses_newline : (C : Clauses) → C.Good → ∀ l ∈ C.render, '\n' ∉ l
  | .endif ind, h => by
    intro l hl
    rw [Clauses.render, List.mem_singleton] at hl
    subst hl
    simp only [List.mem_append, not_or]
    exact ⟨h.1, by decide⟩
  | .els ind body ind', h => by
    intro l hl
    rw [Clauses.render, List.mem_cons, List.mem_append, List.mem_singleton] at hl
    rcases hl with rfl | hl | rfl
    · simp only [List.mem_append, not_or]; exact ⟨h.1.1, by decide⟩
    · exact render_newline body h.2.1 l hl
    · simp only [List.mem_append, not_or]; exact ⟨h.2.2.1, by decide⟩
  | .elif ind key body more, h => by
    intro l hl
    rw [Clauses.render, List.mem_cons, List.mem_append] at hl
    rcases hl with rfl | hl | hl
    · simp only [List.mem_append, not_or]
      exact ⟨⟨⟨h.1.1.1, by decide⟩, h.1.2.newline⟩, by decide⟩
    · exact render_newline body h.2.1 l hl
    · exact clauses_newline more h.2.2 l hl
end

/-- C91, but for the displacement: what `make_lines` makes of a template. The alignment of lists is the intended one (`C91_aligned`) if the
displacement is 0, and it is 0 except after lines that consist of white space and a directive or a key without lines. -/
theorem C91_make_lines_partial (T : Tmpl) (h : T.Good) (h0 : T.render ≠ []) (d : List (Txt × Val)) (hd : Flat d) :
    makeLines (joinedBy ['\n'] T.render) d = (T.eval d 0).map (·.1) := by
  simp only [joinedBy_eq] at *
  unfold makeLines tokenize
  rw [splitChar_join (render_newline T h) h0]
  have := run_tmpl T h ⟨[], [], 0, [.active], [], d⟩ ⟨rfl, rfl⟩ (by simp) hd []
  rw [List.append_nil] at this
  show (do let p ← Proc.run _ false (toks T.render); _) = _
  rw [this]
  simp only
  cases T.eval d 0 with
  | error e => rfl
  | ok r => rfl

theorem breakOn_some {pat s : Txt} (h0 : pat ≠ []) (h : breakOn pat s = none) : ¬ pat <:+: s := by
  induction s with
  | nil => simp [h0]
  | cons c cs ih =>
    rw [breakOn] at h
    split at h
    · cases h
    · rename_i hp
      intro hi
      rcases List.infix_cons_iff.mp hi with h1 | h1
      · exact hp (List.isPrefixOf_iff_prefix.mpr h1)
      · exact ih (by simpa using h) h1

instance (s : Txt) : Decidable ((t!"[[[") <:+: s) :=
  decidable_of_iff (breakOn (t!"[[[") s ≠ none) ⟨fun h => Decidable.byContradiction fun hn => h (breakOn_none hn), fun h hn => breakOn_some (by simp) hn h⟩

instance (s : Txt) : Decidable (IsText s) := by unfold IsText; infer_instance
instance (s : Txt) : Decidable (IsIndent s) := by unfold IsIndent; infer_instance
instance (s : Txt) : Decidable (IsKey s) := by unfold IsKey; infer_instance

mutual
/-- `Tmpl.Good` can be decided. -/
def goodDec : (T : Tmpl) → Decidable T.Good
  | .nil => .isTrue trivial
  | .plain _ rest => @instDecidableAnd _ _ _ (goodDec rest)
  | .expand _ _ _ rest => @instDecidableAnd _ _ _ (@instDecidableAnd _ _ _ (@instDecidableAnd _ _ _ (goodDec rest)))
  | .cond _ _ body more rest => @instDecidableAnd _ _ _ (@instDecidableAnd _ _ (goodDec body) (@instDecidableAnd _ _ (clausesDec more) (goodDec rest)))

/-- `Clauses.Good` can be decided. -/
def clausesDec : (C : Clauses) → Decidable C.Good
  | .endif ind => inferInstanceAs (Decidable (IsIndent ind))
  | .els _ body _ => @instDecidableAnd _ _ _ (@instDecidableAnd _ _ (goodDec body) _)
  | .elif _ _ body more => @instDecidableAnd _ _ _ (@instDecidableAnd _ _ (goodDec body) (clausesDec more))
end

instance (T : Tmpl) : Decidable T.Good := goodDec T

/-- A template with two conditional blocks, one in the other, and its result. -/
def exampleTmpl : Tmpl :=
  .plain (t!"f()") <| .cond [] (t!"a")
    (.expand (t!"  x(") (t!"xs") (t!");") (.cond (t!"  ") (t!"b") (.plain (t!"  no") .nil) (.els (t!"  ") (.plain (t!"  yes  ") .nil) (t!"  ")) .nil))
    (.elif (t!" ") (t!"c") (.expand [] (t!"zs") [] .nil) (.els [] .nil [])) (.plain [] .nil)

/-- Values for it. -/
def exampleDict : List (Txt × Val) := [(t!"a", .bool true), (t!"b", .int 0), (t!"xs", .list [t!"p,", t!"q,", t!"r"])]

example : exampleTmpl.Good ∧ Flat exampleDict ∧ makeLines (joinTxt ['\n'] exampleTmpl.render) exampleDict =
    .ok [t!"f()", t!"  x(p,", t!"    q,", t!"    r);", t!"  yes", []] := by
  have hg : exampleTmpl.Good := by decide +kernel
  have hf : Flat exampleDict := by
    intro key v h
    unfold exampleDict at h
    simp only [List.lookup] at h
    split at h
    · cases h; decide
    · split at h
      · cases h; decide +kernel
      · split at h
        · cases h; decide
        · cases h
  refine ⟨hg, hf, ?_⟩
  rw [← joinedBy_eq, C91_make_lines_partial _ hg (by simp [exampleTmpl, Tmpl.render]) _ hf]
  rfl

/-- C91: the lines of a list begin below the first one, if that does not begin with white space. -/
theorem C91_aligned (pre l : Txt) (h : ∃ c cs, l = c :: cs ∧ c ≠ '\t' ∧ c ≠ ' ') :
    (margin (pre ++ l) pre.length).length = pre.length ∧
    (∀ c ∈ margin (pre ++ l) pre.length, c = '\t' ∨ c = ' ') ∧
    ((∀ c ∈ pre, c = '\t' ∨ c = ' ') → margin (pre ++ l) pre.length = pre) := by
  obtain ⟨c, cs, rfl, h1, h2⟩ := h
  have hall : ¬ ((pre ++ c :: cs).all (fun c => c = '\t' || c = ' ')) := by simp [h1, h2]
  have hi : indent (pre ++ c :: cs) = pre.takeWhile (fun c => c = '\t' || c = ' ') := by
    unfold indent
    rw [if_neg hall]
    clear hall
    induction pre with
    | nil => simp [h1, h2]
    | cons d ds ih =>
      rw [List.cons_append, List.takeWhile_cons, List.takeWhile_cons]
      split
      · rw [ih]
      · rfl
  have hle : (pre.takeWhile (fun c => c = '\t' || c = ' ')).length ≤ pre.length := (List.takeWhile_prefix _).length_le
  unfold margin
  rw [hi]
  refine ⟨by simp only [List.length_append, List.length_replicate]; omega, ?_, ?_⟩
  · intro x hx
    rw [List.mem_append] at hx
    rcases hx with hx | hx
    · simpa using List.all_eq_true.mp List.all_takeWhile x hx
    · exact .inr (List.eq_of_mem_replicate hx)
  · intro hp
    have : pre.takeWhile (fun c => c = '\t' || c = ' ') = pre := by
      have hp' : ∀ x ∈ pre, (fun c : Char => decide (c = '\t') || decide (c = ' ')) x := fun x hx => by simpa using hp x hx
      clear hi hle hall hp
      induction pre with
      | nil => rfl
      | cons d ds ih => rw [List.takeWhile_cons, if_pos (hp' d (by simp)), ih (fun x hx => hp' x (by simp [hx]))]
    rw [this]; simp

theorem displaced_nil (r : List Txt × Nat) : displaced [] r = r := rfl

theorem tidy_indent {d : List (Txt × Val)} : (C : Clauses) → C.Tidy d → C.indent = []
  | .endif _, h => h
  | .els _ _ _, h => h.1
  | .elif _ _ _ _, h => h.1

theorem map_displaced_nil (r : Except PyErr (List Txt × Nat)) : r.map (displaced []) = r := by
  cases r <;> rfl

mutual
theorem eval_tidy (d : List (Txt × Val)) : (T : Tmpl) → T.Tidy d → T.eval d 0 = (T.meant d).map (·, 0)
  | .nil, _ => rfl
  | .plain text rest, h => by
    rw [Tmpl.eval, Tmpl.meant, eval_tidy d rest h]
    cases rest.meant d <;> rfl
  | .expand pre key post rest, h => by
    rw [Tmpl.eval, Tmpl.meant]
    cases hv : valueOf d key with
    | error e => rfl
    | ok v =>
      have hz : (expandLine 0 pre (block v) post).2 = 0 := by
        have h1 := h.1
        unfold expandLine
        split
        · rename_i hb
          split
          · rename_i hc
            rcases h1 with h1 | h1 | h1 | h1
            · simp [h1]
            · rw [h1] at hc; simp at hc
            · exact absurd hc.2 h1
            · exact absurd hb (h1 v hv)
          · rfl
        · rfl
        · rfl
      simp only [bind, Except.bind, hz]
      rw [eval_tidy d rest h.2]
      cases rest.meant d <;> rfl
  | .cond ind key body more rest, h => by
    rw [Tmpl.eval, Tmpl.meant, h.1, tidy_indent more h.2.2.1]
    cases valueOf d key with
    | error e => rfl
    | ok v =>
      have hb := eval_tidy d body h.2.1
      have hm := meant_clauses d more h.2.2.1
      have hr := eval_tidy d rest h.2.2.2
      simp only [bind, Except.bind, List.length_nil, Nat.add_zero, map_displaced_nil]
      split
      · rw [hb]
        cases body.meant d with
        | error e => rfl
        | ok l =>
          simp only [Except.map, hr]
          cases rest.meant d <;> rfl
      · rw [hm]
        cases more.meant d with
        | error e => rfl
        | ok l =>
          simp only [Except.map, hr]
          cases rest.meant d <;> rfl

theorem meant_clauses (d : List (Txt × Val)) : (C : Clauses) → C.Tidy d → C.eval d 0 = (C.meant d).map (·, 0)
  | .endif _, _ => rfl
  | .els ind body ind', h => by
    rw [Clauses.eval, Clauses.meant, h.2.2, map_displaced_nil, eval_tidy d body h.2.1]
  | .elif ind key body more, h => by
    rw [Clauses.eval, Clauses.meant, tidy_indent more h.2.2, map_displaced_nil, eval_tidy d body h.2.1, meant_clauses d more h.2.2]
    cases valueOf d key with
    | error e => rfl
    | ok v =>
      simp only [bind, Except.bind]
      split <;> rfl
end

/-- C91 for templates without indented directives and without lines of white space and a key without lines: `make_lines` gives what is meant. -/
theorem C91_tidy_partial (T : Tmpl) (h : T.Good) (h0 : T.render ≠ []) (d : List (Txt × Val)) (hd : Flat d) (ht : T.Tidy d) :
    makeLines (joinedBy ['\n'] T.render) d = T.meant d := by
  rw [C91_make_lines_partial T h h0 d hd, eval_tidy d T ht]
  cases T.meant d <;> rfl

/-- Such a template with an alternative, and the lines that are meant. -/
def tidyTmpl : Tmpl :=
  .cond [] (t!"a") (.expand (t!"  x(") (t!"xs") (t!");") .nil) (.els [] (.plain (t!"no") .nil) []) (.expand [] (t!"none") [] (.plain (t!"end") .nil))

example : tidyTmpl.Good ∧ tidyTmpl.Tidy exampleDict ∧
    tidyTmpl.meant ((t!"none", .none) :: exampleDict) = .ok [t!"  x(p,", t!"    q,", t!"    r);", t!"end"] := by
  refine ⟨by decide +kernel, ?_, rfl⟩
  simp [tidyTmpl, Tmpl.Tidy, Clauses.Tidy, isEmptyOrSpace, isSpace]

/-- C91 is false if a directive is indented, or follows white space: the next list is put too far to the right, because the column is not reset. -/
theorem C91_false_column :
    makeLines (joinedBy ['\n'] [t!"f([[[xs]]])"]) exampleDict = .ok [t!"f(p,", t!"  q,", t!"  r)"] ∧
    makeLines (joinedBy ['\n'] [t!"    [[[IF a]]]", t!"f([[[xs]]])", t!"    [[[ENDIF]]]"]) exampleDict =
      .ok [t!"f(p,", t!"      q,", t!"      r)"] ∧
    makeLines (joinedBy ['\n'] [t!"    [[[e]]]", t!"f([[[xs]]])"]) ((t!"e", .str []) :: exampleDict) = .ok [t!"f(p,", t!"      q,", t!"      r)"] :=
  ⟨rfl, rfl, rfl⟩

/-- C91: directives that do not belong to a conditional block are errors. -/
theorem C91_unmatched (T : Tmpl) (hT : T.Good) (ind key : Txt) (hi : IsIndent ind) (hk : IsKey key) (ls : List Txt) (hl : ∀ l ∈ ls, '\n' ∉ l)
    (d : List (Txt × Val)) (hd : Flat d) (r : List Txt × Nat) (hr : T.eval d 0 = .ok r) :
    makeLines (joinedBy ['\n'] (T.render ++ (ind ++ t!"[[[ENDIF]]]") :: ls)) d = .error .codegen ∧
    makeLines (joinedBy ['\n'] (T.render ++ (ind ++ t!"[[[ELSE]]]") :: ls)) d = .error .codegen ∧
    makeLines (joinedBy ['\n'] (T.render ++ (ind ++ t!"[[[ELIF " ++ key ++ t!"]]]") :: ls)) d = .error .codegen := by
  simp only [joinedBy_eq] at *
  have main : ∀ l t, '\n' ∉ l → lineToks l = [.text ind, t, .newline] →
      (∀ ls c, Proc.step ⟨ls, ind, c, [.active], [], d⟩ false t = .error .codegen) →
      makeLines (joinTxt ['\n'] (T.render ++ l :: ls)) d = .error .codegen := by
    intro l t h1 h2 h3
    unfold makeLines tokenize
    have hnl : ∀ x ∈ T.render ++ l :: ls, '\n' ∉ x := by
      intro x hx
      rw [List.mem_append, List.mem_cons] at hx
      rcases hx with hx | rfl | hx
      · exact render_newline T hT x hx
      · exact h1
      · exact hl x hx
    rw [splitChar_join hnl (by simp)]
    show (do let p ← Proc.run _ false (toks _); _) = _
    rw [toks_append, toks_cons, run_tmpl T hT ⟨[], [], 0, [.active], [], d⟩ ⟨rfl, rfl⟩ (by simp) hd, hr, h2]
    simp only [thenRun, List.cons_append, List.nil_append]
    rw [run_directive_error (p := (⟨[], [], 0, [.active], [], d⟩ : Proc).after r) ⟨rfl, rfl⟩ hi (h3 _ _)]; rfl
  refine ⟨main _ _ ?_ (toks_endif hi) (fun _ _ => rfl), main _ _ ?_ (toks_else hi) (fun _ _ => rfl), main _ _ ?_ (toks_elif ⟨hi, hk⟩) (fun _ _ => rfl)⟩
  all_goals simp only [List.mem_append, not_or]
  · exact ⟨hi.1, by decide⟩
  · exact ⟨hi.1, by decide⟩
  · exact ⟨⟨⟨hi.1, by decide⟩, hk.newline⟩, by decide⟩

/-- C91: a conditional block without an end is an error. -/
theorem C91_unclosed (T B : Tmpl) (hT : T.Good) (hB : B.Good) (ind key : Txt) (hi : IsIndent ind) (hk : IsKey key) (d : List (Txt × Val)) (hd : Flat d)
    (r : List Txt × Nat) (hr : T.eval d 0 = .ok r) (v : Val) (hv : valueOf d key = .ok v) (q : List Txt × Nat) (hq : B.eval d (r.2 + ind.length) = .ok q) :
    makeLines (joinedBy ['\n'] (T.render ++ (ind ++ t!"[[[IF " ++ key ++ t!"]]]") :: B.render)) d = .error .codegen := by
  simp only [joinedBy_eq] at *
  unfold makeLines tokenize
  have hnl : ∀ l ∈ T.render ++ (ind ++ t!"[[[IF " ++ key ++ t!"]]]") :: B.render, '\n' ∉ l := by
    intro l hl
    rw [List.mem_append, List.mem_cons] at hl
    rcases hl with hl | rfl | hl
    · exact render_newline T hT l hl
    · simp only [List.mem_append, not_or]
      exact ⟨⟨⟨hi.1, by decide⟩, hk.newline⟩, by decide⟩
    · exact render_newline B hB l hl
  rw [splitChar_join hnl (by simp)]
  show (do let p ← Proc.run _ false (toks _); _) = _
  rw [toks_append, toks_cons, toks_if ⟨hi, hk⟩, run_tmpl T hT ⟨[], [], 0, [.active], [], d⟩ ⟨rfl, rfl⟩ (by simp) hd, hr]
  simp only [thenRun, List.cons_append, List.nil_append]
  generalize hp : (⟨[], [], 0, [.active], [], d⟩ : Proc).after r = p
  have hc : Clean p := by rw [← hp]; exact ⟨rfl, rfl⟩
  have hs := step_if (p := { p with cur := ind, column := p.column + ind.length }) hi.blank hc.top hk
  have pd : p.dict = d := by rw [← hp]; rfl
  have ps : p.scope = [.active] := by rw [← hp]; rfl
  have pc : p.column = r.2 := by rw [← hp]; rfl
  have hv' : valueOf p.dict key = .ok v := by rw [pd]; exact hv
  simp only [hv'] at hs
  rw [run_directive hc hi hs]
  rw [← List.append_nil (toks B.render)]
  by_cases hb : v.truthy
  · simp only [hb, if_true]
    rw [run_tmpl B hB { p with column := p.column + ind.length, scope := .active :: p.scope } ⟨hc.cur, rfl⟩ (by simp) (by rw [pd]; exact hd)]
    simp only [pd, pc, hq, thenRun]
    simp [Proc.run, Proc.after, bind, Except.bind, ps]
  · simp only [hb, Bool.false_eq_true, if_false]
    rw [run_skip B hB { p with column := p.column + ind.length, scope := .inactive :: p.scope } hc.cur (by simp [Proc.top]) (by simp)]
    simp [Proc.run, bind, Except.bind, ps]

example : IsKey (t!"key") ∧ (∃ r, exampleTmpl.eval exampleDict 0 = .ok r) ∧ ∃ v, valueOf exampleDict (t!"b") = .ok v :=
  ⟨by decide +kernel, ⟨_, rfl⟩, ⟨_, rfl⟩⟩

end Ystring
