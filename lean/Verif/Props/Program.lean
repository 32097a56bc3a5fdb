import Verif.Proofs.Program
/-
Property theorems C97: any template, with tags anywhere.
-/
namespace Ystring
open Gen Spec

theorem breakOn_unique {pat a a' b b' : Txt} (hp : pat ≠ []) (h : ¬ pat <:+: a ++ pat.dropLast) (h' : ¬ pat <:+: a' ++ pat.dropLast)
    (e : a ++ pat ++ b = a' ++ pat ++ b') : a = a' ∧ b = b' := by
  have h1 := breakOn_complete (b := b) hp h
  rw [e, breakOn_complete hp h'] at h1
  simp only [Option.some.injEq, Prod.mk.injEq] at h1
  exact ⟨h1.1.symm, h1.2.symm⟩

theorem infix_open (pre rest : Txt) : (t!"[[[") <:+: pre ++ t!"[[[" ++ rest := ⟨pre, rest, rfl⟩

theorem linePieces_unique {l : Txt} {ps qs : List Piece} (h1 : LinePieces l ps) (h2 : LinePieces l qs) : ps = qs := by
  induction h1 generalizing qs with
  | blank =>
    generalize e : ([] : Txt) = l at h2
    cases h2 with
    | blank => rfl
    | text h => exact absurd e.symm h
    | tag => simp at e
  | @text s h0 h =>
    generalize e : s = l at h2
    cases h2 with
    | blank => exact absurd e h0
    | text _ => rfl
    | tag => exact absurd (by rw [e]; exact ⟨_, _, by simp only [List.append_assoc]; rfl⟩) h
  | @tag pre inner post ps g1 g2 _ ih =>
    generalize e : pre ++ t!"[[[" ++ inner ++ t!"]]]" ++ post = l at h2
    cases h2 with
    | blank => simp at e
    | text _ h => exact absurd (by rw [← e]; exact ⟨pre, inner ++ t!"]]]" ++ post, by simp⟩) h
    | @tag pre' inner' post' qs k1 k2 k3 =>
      have e' : pre ++ t!"[[[" ++ (inner ++ t!"]]]" ++ post) = pre' ++ t!"[[[" ++ (inner' ++ t!"]]]" ++ post') := by simpa using e
      obtain ⟨rfl, e2⟩ := breakOn_unique (by simp) g1 k1 e'
      obtain ⟨rfl, rfl⟩ := breakOn_unique (by simp) g2 k2 e2
      rw [ih k3]

theorem split_unique {l l' t t' : Txt} (h : '\n' ∉ l) (h' : '\n' ∉ l') (e : l ++ '\n' :: t = l' ++ '\n' :: t') : l = l' ∧ t = t' := by
  have := breakOn_unique (pat := ['\n']) (a := l) (a' := l') (b := t) (b' := t') (by simp)
    (by simp only [List.dropLast_singleton, List.append_nil]; exact fun hi => h (hi.subset (by simp)))
    (by simp only [List.dropLast_singleton, List.append_nil]; exact fun hi => h' (hi.subset (by simp))) (by simpa using e)
  exact this

theorem tmplPieces_unique {s : Txt} {ps qs : List Piece} (h1 : Pieces s ps) (h2 : Pieces s qs) : ps = qs := by
  induction h1 generalizing qs with
  | @line l ps hl h =>
    cases h2 with
    | line _ h' => rw [linePieces_unique h h']
    | lines => exact absurd (by simp) hl
  | @lines l ps t qs' hl h _ ih =>
    generalize e : l ++ '\n' :: t = s at h2
    cases h2 with
    | line hl' => exact absurd (by rw [← e]; simp) hl'
    | lines hl' h' ht' =>
      obtain ⟨rfl, rfl⟩ := split_unique hl hl' e
      rw [linePieces_unique h h', ih ht']

theorem tagTok_terminated (inner : Txt) : tagTok inner ≠ .unterminated := by
  rcases tag_cases inner with ⟨m, hm⟩ | ⟨s, key, rfl, hk⟩ | ⟨s, key, rfl, hk⟩ | he | he | he
  · have := means_tok hm
    intro e
    rw [e] at this
    cases m with
    | malformed => obtain ⟨_, h, _⟩ := this; cases h
    | _ => cases this
  · rw [tagTok_if hk]; simp
  · rw [tagTok_elif hk]; simp
  · rw [tagTok_else he]; simp
  · rw [tagTok_endif he]; simp
  · rw [he]; simp

/-- C97: every template has just one list of pieces, unless there is a `[[[` that is not followed by `]]]` in its line. Then there is an error. -/
theorem C97_pieces (s : Txt) (d : List (Txt × Val)) :
    (∃ ps, Pieces s ps ∧ ∀ qs, Pieces s qs → qs = ps) ∨
    ((∀ ps, ¬ Pieces s ps) ∧ (∃ ls l ms, s = joinedBy ['\n'] (ls ++ l :: ms) ∧ (∀ x ∈ ls ++ l :: ms, '\n' ∉ x) ∧ Unterminated l) ∧
      ∃ e, makeLines s d = .error e) := by
  simp only [joinedBy_eq] at *
  rcases pieces_cases s with ⟨ps, h⟩ | ⟨ls, l, ms, e, hu⟩
  · exact .inl ⟨ps, h, fun qs hq => tmplPieces_unique hq h⟩
  · refine .inr ?_
    have hm : Token.unterminated ∈ tokenize s := by
      unfold tokenize
      rw [← e]
      exact List.mem_flatMap.mpr ⟨l, by simp, unterminated_tokens hu _ (Nat.lt_succ_self _)⟩
    refine ⟨?_, ⟨ls, l, ms, ?_, ?_, hu⟩, ?_⟩
    · intro ps hp
      rw [pieces_tokens hp, List.mem_map] at hm
      obtain ⟨x, _, hx⟩ := hm
      cases x with
      | text s => cases hx
      | newline => cases hx
      | tag inner => exact tagTok_terminated inner hx
    · rw [e, joinTxt_split]
    · rw [e]
      obtain ⟨ks, k0, k1, rfl⟩ := split_lines_ex s
      rw [splitChar_join k1 k0]
      exact k1
    · unfold makeLines
      cases hr : Proc.run ⟨[], [], 0, [.active], [], d⟩ false (tokenize s) with
      | error e => exact ⟨e, rfl⟩
      | ok q => exact absurd hr (run_unterminated hm _ _ q)

/-- C97: a template in which the conditional directives match prints what the specification says, or raises the error that it says. -/
theorem C97_nested (s : Txt) (T : Prog) (hs : Pieces s T.pieces) (hT : T.Good) (d : List (Txt × Val)) : makeLines s d = T.print d := by
  have := prog_eval T hT ⟨[], [], 0, [], d⟩ [] false (by simp) []
  rw [List.append_nil] at this
  unfold makeLines
  rw [pieces_tokens hs]
  have e : Proc.run ⟨[], [], 0, [.active], [], d⟩ false (T.pieces.map pieceTok) = _ := this
  rw [e]
  unfold Prog.print goOn
  cases T.eval ⟨[], [], 0, [], d⟩ false with
  | error e => rfl
  | ok q => rfl

/-- The hypotheses are met: a conditional within a line. -/
example : let T : Prog := .text (t!"a") (.cond (t!"IF x") (t!"x") (.text (t!"b") .done)
      (.els (t!"ELSE") (.text (t!"c") .done) (.endif (t!"ENDIF"))) (.text (t!"d") (.newline .done)))
    Pieces (t!"a[[[IF x]]]b[[[ELSE]]]c[[[ENDIF]]]d") T.pieces ∧ T.Good ∧ T.print [(t!"x", .bool true)] = .ok [t!"abd"] ∧
      T.print [(t!"x", .bool false)] = .ok [t!"acd"] ∧ T.print [] = .error .key := by
  refine ⟨?_, ?_, rfl, rfl, rfl⟩
  · exact .line (ps := [.text (t!"a"), .tag (t!"IF x"), .text (t!"b"), .tag (t!"ELSE"), .text (t!"c"), .tag (t!"ENDIF"), .text (t!"d")]) (by decide)
      (.tag (pre := t!"a") (inner := t!"IF x") (by decide) (by decide) (.tag (pre := t!"b") (inner := t!"ELSE") (by decide) (by decide)
        (.tag (pre := t!"c") (inner := t!"ENDIF") (by decide) (by decide) (.text (by decide) (by decide)))))
  · exact ⟨⟨t!"x", rfl, ⟨by decide, by decide⟩, [], [], by simp [Spaces], by simp [Spaces], rfl⟩, trivial, ⟨by decide, trivial, by
      show (t!"ENDIF") <+: t!"ENDIF"; exact List.prefix_refl _⟩, trivial⟩

/-- C97: the engine accepts no other templates. -/
theorem C97_accepts (s : Txt) (d : List (Txt × Val)) (r : List Txt) (h : makeLines s d = .ok r) :
    ∃ T : Prog, T.Good ∧ Pieces s T.pieces ∧ T.print d = .ok r := by
  rcases pieces_cases s with ⟨ps, hp⟩ | ⟨ls, l, ms, e, hu⟩
  · have hr : ∃ q, Proc.run ⟨[], [], 0, [.active], [], d⟩ false (pieceToks ps) = .ok q ∧ q.scope.length = 1 := by
      unfold makeLines at h
      rw [pieces_tokens hp] at h
      change (Proc.run ⟨[], [], 0, [.active], [], d⟩ false (pieceToks ps)).bind _ = _ at h
      cases hr : Proc.run ⟨[], [], 0, [.active], [], d⟩ false (pieceToks ps) with
      | error e => rw [hr] at h; cases h
      | ok q =>
        rw [hr] at h
        refine ⟨q, rfl, ?_⟩
        refine Classical.byContradiction fun hl => ?_
        simp only [Except.bind] at h
        rw [if_pos hl] at h
        cases h
    obtain ⟨q, h1, h2⟩ := hr
    obtain ⟨T, hT, rfl⟩ := accepted ps _ q false [] rfl h1 h2
    exact ⟨T, hT, hp, by rw [← C97_nested s T hp hT d, h]⟩
  · exfalso
    have hm : Token.unterminated ∈ tokenize s := by
      unfold tokenize
      rw [← e]
      exact List.mem_flatMap.mpr ⟨l, by simp, unterminated_tokens hu _ (Nat.lt_succ_self _)⟩
    unfold makeLines at h
    cases hr : Proc.run ⟨[], [], 0, [.active], [], d⟩ false (tokenize s) with
    | error e => rw [hr] at h; cases h
    | ok q => exact absurd hr (run_unterminated hm _ _ q)

/-! ### Special cases -/

/-- C97: an assignment on a line of its own prints nothing, and the key has the value in everything that follows. -/
theorem C97_set (key v t : Txt) (hk : IsKey key) (hv : '\n' ∉ v ∧ ¬ (t!"]]]") <:+: v ++ t!"]]") (d : List (Txt × Val)) :
    makeLines (t!"[[[SET " ++ key ++ '=' :: v ++ t!"]]]" ++ '\n' :: t) d = makeLines t ((key, .str v) :: d) := by
  obtain ⟨c, k, rfl⟩ : ∃ c k, key = c :: k := by
    cases key with
    | nil => exact absurd rfl hk.1
    | cons c k => exact ⟨c, k, rfl⟩
  have heq : '=' ∉ c :: k := fun hm => by
    rcases hk.2.1 _ hm with h | h <;> exact absurd h (by decide)
  have hm : Means (t!"SET " ++ [] ++ c :: k ++ '=' :: v) (.assign (c :: k) v) :=
    .assign (by simp [Spaces]) ((blankChar_eq c).trans (isSpace_alphanum (hk.2.1 c (by simp)))) heq
  have hl : '\n' ∉ t!"[[[SET " ++ c :: k ++ '=' :: v ++ t!"]]]" := by
    have := hk.newline
    have := hv.1
    simp at *
    simp_all
  have hp : LinePieces (t!"[[[SET " ++ c :: k ++ '=' :: v ++ t!"]]]") [.text [], .tag (t!"SET " ++ [] ++ c :: k ++ '=' :: v)] := by
    have := LinePieces.tag (pre := []) (inner := t!"SET " ++ [] ++ c :: k ++ '=' :: v) (post := []) (ps := []) (by decide) ?_ .blank
    · simpa using this
    · intro hi
      have hin : ∀ x ∈ t!"SET " ++ [] ++ c :: k ++ ['='], x ≠ ']' := by
        intro x hx e
        subst e
        simp only [List.mem_append, List.mem_singleton] at hx
        rcases hx with ((hx | hx) | hx) | hx
        · exact absurd hx (by decide)
        · simp at hx
        · exact hk.close hx
        · exact absurd hx (by decide)
      have : ∀ (a b : Txt), (∀ x ∈ a, x ≠ ']') → (t!"]]]") <:+: a ++ b → (t!"]]]") <:+: b := by
        intro a b
        induction a with
        | nil => intro _ h; exact h
        | cons x a ih =>
          intro ha h
          rcases List.infix_cons_iff.mp h with h | h
          · obtain ⟨u, hu⟩ := h
            injection hu with e _
            exact absurd e.symm (ha x (by simp))
          · exact ih (fun y hy => ha y (by simp [hy])) h
      exact hv.2 (this _ _ hin (by simpa using hi))
  have e1 : tokenize (t!"[[[SET " ++ c :: k ++ '=' :: v ++ t!"]]]" ++ '\n' :: t) =
      [.text [], tagTok (t!"SET " ++ [] ++ c :: k ++ '=' :: v), .newline] ++ tokenize t := by
    unfold tokenize
    rw [splitChar_append hl, List.flatMap_cons, linePieces_tokens hp _ (Nat.lt_succ_self _)]
    rfl
  unfold makeLines
  rw [e1]
  have r1 := step_text_page ⟨[], [], 0, [], d⟩ [] [] false
  have r2 := step_tag hm ⟨[], [], 0, [], d⟩ [] false
  have r3 := step_newline_page ⟨[], [], 0, [], (c :: k, .str v) :: d⟩ [] true (fun _ => rfl)
  have : Proc.run ⟨[], [], 0, [.active], [], d⟩ false
      ([.text [], tagTok (t!"SET " ++ [] ++ c :: k ++ '=' :: v), .newline] ++ tokenize t) =
      Proc.run ⟨[], [], 0, [.active], [], (c :: k, .str v) :: d⟩ false (tokenize t) := by
    refine (run_cons r1 _).trans ?_
    refine (run_cons r2 _).trans ?_
    exact run_cons r3 _
  rw [this]

/-- The hypotheses are met. -/
example : makeLines (t!"[[[SET a=x y]]]\n[[[a]]], [[[b]]]") [(t!"b", .str (t!"7"))] = .ok [t!"x y, 7"] := by rfl

/-- A line with keys: each element has a key, its value, and the text behind it. -/
def lineSource (first : Txt) : List (Txt × Txt × Txt) → Txt
  | [] => first
  | (key, _, text) :: more => first ++ t!"[[[" ++ key ++ t!"]]]" ++ lineSource text more

/-- The same with the values in place of the keys. -/
def lineFilled (first : Txt) : List (Txt × Txt × Txt) → Txt
  | [] => first
  | (_, v, text) :: more => first ++ v ++ lineFilled text more

def lineProg (first : Txt) : List (Txt × Txt × Txt) → Prog
  | [] => if first = [] then .newline .done else .text first (.newline .done)
  | (key, _, text) :: more => .text first (.tag key (.value key) (lineProg text more))

theorem key_means {key : Txt} (h : IsKey key) : Means key (.value key) := by
  have no : ∀ c : Char, ¬ (c.isAlphanum ∨ c = '_') → c ∉ key := fun c hc hm => hc (h.2.1 c hm)
  refine .value ?_ ?_ ?_ ?_
  · unfold Directive
    simp only [not_or]
    exact ⟨fun hp => no ' ' (by decide) (hp.subset (by simp)), fun hp => no ' ' (by decide) (hp.subset (by simp)), h.2.2.1, h.2.2.2,
      fun hp => no ' ' (by decide) (hp.subset (by simp))⟩
  all_goals (rintro rfl; exact absurd (h.2.1 _ (List.mem_singleton.mpr rfl)) (by decide))

theorem key_look {key : Txt} (h : IsKey key) (d : List (Txt × Val)) : look d key = valueOf d key := by
  unfold look
  rw [if_neg]
  intro hm
  exact absurd (h.2.1 _ hm) (by decide)

theorem open_append {pre : Txt} (h1 : ¬ (t!"[[[") <:+: pre) (h2 : pre.getLast? ≠ some '[') : ¬ (t!"[[[") <:+: pre ++ t!"[[" := by
  have := breakOn_open (rest := []) h1 h2
  exact (breakOn_sound (by simp) this).2

theorem close_append {inner : Txt} (h : ']' ∉ inner) : ¬ (t!"]]]") <:+: inner ++ t!"]]" := by
  have := breakOn_close (post := []) h
  exact (breakOn_sound (by simp) this).2

/-- C97: a line with any number of keys, all with strings as values, becomes this line with the values in place of the keys, without white space at its end.
(If it has nothing but white space, it may be left out.) -/
theorem C97_line (first : Txt) (ks : List (Txt × Txt × Txt)) (d : List (Txt × Val))
    (hf : IsText first ∧ first.getLast? ≠ some '[')
    (hks : ∀ k ∈ ks, IsKey k.1 ∧ valueOf d k.1 = .ok (.str k.2.1) ∧ '\n' ∉ k.2.1 ∧ IsText k.2.2 ∧ k.2.2.getLast? ≠ some '[')
    (hb : ∃ c ∈ lineFilled first ks, blankChar c = false) :
    makeLines (lineSource first ks) d = .ok [cutBlanks (lineFilled first ks)] := by
  simp only [cutBlanks_eq, blankChar_eq] at *
  have hpieces : ∀ ks first, (IsText first ∧ first.getLast? ≠ some '[') →
      (∀ k ∈ ks, IsKey k.1 ∧ valueOf d k.1 = .ok (.str k.2.1) ∧ '\n' ∉ k.2.1 ∧ IsText k.2.2 ∧ k.2.2.getLast? ≠ some '[') →
      '\n' ∉ lineSource first ks ∧ ∃ ps, LinePieces (lineSource first ks) ps ∧ (lineProg first ks).pieces = ps ++ [.newline] ∧ (lineProg first ks).Good := by
    intro ks
    induction ks with
    | nil =>
      intro first hf _
      refine ⟨hf.1.1, ?_⟩
      by_cases h0 : first = []
      · subst h0; exact ⟨[], .blank, rfl, trivial⟩
      · refine ⟨[.text first], .text h0 hf.1.2, ?_, ?_⟩ <;> simp [lineProg, h0, Prog.pieces, Prog.Good]
    | cons k ks ih =>
      obtain ⟨key, v, text⟩ := k
      intro first hf hks
      obtain ⟨h1, h2, h3, h4, h5⟩ := hks _ (List.mem_cons_self ..)
      obtain ⟨g1, ps, g2, g3, g4⟩ := ih text ⟨h4, h5⟩ (fun k hk => hks k (List.mem_cons_of_mem _ hk))
      refine ⟨?_, .text first :: .tag key :: ps, .tag (open_append hf.1.2 hf.2) (close_append h1.close) g2, ?_, ?_⟩
      · have := h1.newline
        have := hf.1.1
        simp only [lineSource, List.mem_append, not_or]
        exact ⟨⟨⟨⟨hf.1.1, by decide⟩, h1.newline⟩, by decide⟩, g1⟩
      · simp [lineProg, Prog.pieces, g3]
      · exact ⟨key_means h1, g4⟩
  have heval : ∀ ks first (p : Page) (i : Bool), (IsText first ∧ first.getLast? ≠ some '[') →
      (∀ k ∈ ks, IsKey k.1 ∧ valueOf d k.1 = .ok (.str k.2.1) ∧ '\n' ∉ k.2.1 ∧ IsText k.2.2 ∧ k.2.2.getLast? ≠ some '[') →
      p.dict = d → (i = true → p.blank = true) → (∃ c ∈ p.line ++ lineFilled first ks, isSpace c = false) →
      ∃ q, (lineProg first ks).eval p i = .ok q ∧ q.1.lines = p.lines ++ [rstrip (p.line ++ lineFilled first ks)] := by
    intro ks
    induction ks with
    | nil =>
      intro first p i hf _ _ hi hb
      by_cases h0 : first = []
      · subst h0
        have hi' : i = false := by
          cases i with
          | false => rfl
          | true =>
            have := hi rfl
            obtain ⟨c, hc, hcs⟩ := hb
            simp only [lineFilled, List.append_nil] at hc
            have := List.all_eq_true.mp this c hc
            rw [blankChar_eq, hcs] at this; cases this
        subst hi'
        exact ⟨_, rfl, by simp [Page.endLine, lineFilled]⟩
      · have e : lineProg first [] = .text first (.newline .done) := by simp [lineProg, h0]
        rw [e]
        refine ⟨_, rfl, ?_⟩
        simp [Page.endLine, Page.write, hf.1.1, lineFilled]
    | cons k ks ih =>
      obtain ⟨key, v, text⟩ := k
      intro first p i hf hks hd hi hb
      obtain ⟨h1, h2, h3, h4, h5⟩ := hks _ (List.mem_cons_self ..)
      simp only at h1 h2 h3 h4 h5
      have hl : look p.dict key = .ok (.str v) := by rw [hd, key_look h1, h2]
      have e : (lineProg first ((key, v, text) :: ks)).eval p i =
          (lineProg text ks).eval ((p.write first).put (.str v)) (block (.str v) = [] && (p.write first).blank) := by
        have hl' : look (p.write first).dict key = .ok (.str v) := by
          rw [← hl]; unfold Page.write; split <;> rfl
        simp only [lineProg, Prog.eval, Tag.eval, hl', bind, Except.bind]
      have hw : p.write first = { p with line := p.line ++ first, column := p.column + first.length } := by
        unfold Page.write; rw [if_neg hf.1.1]
      have hput : ∃ n, (p.write first).put (.str v) = { p with line := p.line ++ first ++ v, column := n } := by
        rw [hw]
        unfold Page.put
        by_cases hv : v = []
        · subst hv; exact ⟨p.column + first.length, by simp⟩
        · refine ⟨p.column + first.length + v.length, ?_⟩
          simp only [if_neg hv, Page.write]
          rw [if_neg h3]
      obtain ⟨n, hput⟩ := hput
      rw [e, hput]
      obtain ⟨q, hq1, hq2⟩ := ih text { p with line := p.line ++ first ++ v, column := n } (block (.str v) = [] && (p.write first).blank) ⟨h4, h5⟩
        (fun k hk => hks k (List.mem_cons_of_mem _ hk)) hd (by
          intro hx
          simp only [Bool.and_eq_true, decide_eq_true_eq] at hx
          have hv : v = [] := by
            by_cases hv : v = []
            · exact hv
            · simp [block, hv] at hx
          have := hx.2
          rw [hw] at this
          subst hv
          simpa [Page.blank] using this) (by
          obtain ⟨c, hc, hcs⟩ := hb
          exact ⟨c, by simpa [lineFilled] using hc, hcs⟩)
      refine ⟨q, hq1, ?_⟩
      rw [hq2]
      simp [lineFilled]
  obtain ⟨g1, ps, g2, g3, g4⟩ := hpieces ks first hf hks
  rw [C97_nested (lineSource first ks) (lineProg first ks) (by rw [g3]; exact .line g1 g2) g4]
  obtain ⟨q, hq1, hq2⟩ := heval ks first ⟨[], [], 0, [], d⟩ false hf hks rfl (by simp) (by simpa using hb)
  unfold Prog.print
  rw [hq1]
  simp only [bind, Except.bind, hq2, List.nil_append]

/-- The hypotheses are met: three keys, one of them with an empty value. -/
example : let d : List (Txt × Val) := [(t!"type", .str (t!"int")), (t!"name", .str (t!"x")), (t!"init", .str [])]
    lineSource [] [(t!"type", t!"int", t!" "), (t!"name", t!"x", []), (t!"init", [], t!";  ")] = t!"[[[type]]] [[[name]]][[[init]]];  " ∧
    makeLines (t!"[[[type]]] [[[name]]][[[init]]];  ") d = .ok [t!"int x;"] := by
  exact ⟨rfl, rfl⟩

/-- C97: `>` remembers the column and `|` at the beginning of a line goes on below it. (How `margin` reaches the column: `C91_aligned`; the column is wrong
in the cases of `C97_false_column`.) -/
theorem C97_marks_partial (pre a b : Txt) (h1 : IsText pre ∧ pre.getLast? ≠ some '[') (h2 : IsText a ∧ a ≠ []) (h3 : IsText b ∧ b ≠ [])
    (d : List (Txt × Val)) :
    makeLines (pre ++ t!"[[[>]]]" ++ a ++ '\n' :: t!"[[[|]]]" ++ b) d =
      .ok [cutBlanks (pre ++ a), cutBlanks (margin pre pre.length ++ b)] := by
  simp only [cutBlanks_eq] at *
  let T : Prog := .text pre (.tag (t!">") .mark (.text a (.newline (.text [] (.tag (t!"|") .tab (.text b (.newline .done)))))))
  have hp : Pieces (pre ++ t!"[[[>]]]" ++ a ++ '\n' :: t!"[[[|]]]" ++ b) T.pieces := by
    have p1 : LinePieces (pre ++ t!"[[[" ++ t!">" ++ t!"]]]" ++ a) [.text pre, .tag (t!">"), .text a] :=
      .tag (open_append h1.1.2 h1.2) (by decide) (.text h2.2 h2.1.2)
    have p2 : LinePieces ([] ++ t!"[[[" ++ t!"|" ++ t!"]]]" ++ b) [.text [], .tag (t!"|"), .text b] :=
      .tag (by decide) (by decide) (.text h3.2 h3.1.2)
    have n1 : '\n' ∉ pre ++ t!"[[[" ++ t!">" ++ t!"]]]" ++ a := by
      simp only [List.mem_append, not_or]
      exact ⟨⟨⟨⟨h1.1.1, by decide⟩, by decide⟩, by decide⟩, h2.1.1⟩
    have n2 : '\n' ∉ [] ++ t!"[[[" ++ t!"|" ++ t!"]]]" ++ b := by
      simp only [List.mem_append, not_or]
      exact ⟨⟨⟨⟨by decide, by decide⟩, by decide⟩, by decide⟩, h3.1.1⟩
    have := Pieces.lines n1 p1 (.line n2 p2)
    show Pieces _ [.text pre, .tag (t!">"), .text a, .newline, .text [], .tag (t!"|"), .text b, .newline]
    simpa using this
  rw [C97_nested _ T hp ⟨.mark, .tab, trivial⟩]
  simp [T, Prog.print, Prog.eval, Tag.eval, Page.write, Page.endLine, h1.1.1, h2.1.1, h3.1.1, bind, Except.bind]

example : makeLines (t!"  f([[[>]]]a,\n[[[|]]]b)") [] = .ok [t!"  f(a,", t!"    b)"] := by rfl

/-- The column is wrong after a list with one line and after `|`: the second line of `xs` should be below the first one, and `d` behind `c`. And an `ELIF` or `ELSE` behind an
`ELSE` is accepted. -/
theorem C97_false_column :
    makeLines (t!"[[[one]]] [[[xs]]]") [(t!"one", .list [t!"abc"]), (t!"xs", .list [t!"p", t!"q"])] = .ok [t!"abc p", t!" q"] ∧
    makeLines (t!"[[[one]]] [[[xs]]]") [(t!"one", .str (t!"abc")), (t!"xs", .list [t!"p", t!"q"])] = .ok [t!"abc p", t!"    q"] ∧
    makeLines (t!"ab[[[>]]]\n[[[|]]]c[[[>]]]\n[[[|]]]d") [] = .ok [t!"ab", t!"  c", t!"  d"] ∧
    makeLines (t!"[[[IF a]]]x[[[ELSE]]]y[[[ELSE]]]z[[[ENDIF]]]") [(t!"a", .bool false)] = .ok [t!"y"] := by
  exact ⟨rfl, rfl, rfl, rfl⟩

end Ystring
