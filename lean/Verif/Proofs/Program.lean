import Verif.Proofs.Text
import Verif.Spec.Program
import Verif.Props.Names
/-
Lemmas for C97: tokens and pieces.
-/
namespace Ystring
open Gen Spec

/-! ### breakOn -/

theorem breakOn_sound {pat s a b : Txt} (hp : pat ≠ []) (h : breakOn pat s = some (a, b)) :
    s = a ++ pat ++ b ∧ ¬ pat <:+: a ++ pat.dropLast := by
  induction s generalizing a b with
  | nil => simp [breakOn] at h
  | cons c cs ih =>
    rw [breakOn] at h
    by_cases hc : pat.isPrefixOf (c :: cs)
    · rw [if_pos hc] at h
      simp only [Option.some.injEq, Prod.mk.injEq] at h
      obtain ⟨rfl, rfl⟩ := h
      obtain ⟨t, ht⟩ := List.isPrefixOf_iff_prefix.mp hc
      refine ⟨by rw [← ht]; simp, ?_⟩
      intro hi
      have := hi.length_le
      have h0 : 0 < pat.length := List.length_pos_iff.mpr hp
      simp at this
      omega
    · rw [if_neg hc] at h
      cases e : breakOn pat cs with
      | none => rw [e] at h; simp at h
      | some r =>
        obtain ⟨a', b'⟩ := r
        rw [e] at h
        simp only [Option.map_some, Option.some.injEq, Prod.mk.injEq] at h
        obtain ⟨rfl, rfl⟩ := h
        obtain ⟨h1, h2⟩ := ih e
        refine ⟨by rw [h1]; simp, ?_⟩
        intro hi
        rcases List.infix_cons_iff.mp (by simpa using hi) with hi | hi
        · apply hc
          rw [List.isPrefixOf_iff_prefix, h1]
          obtain ⟨t, ht⟩ := hi
          have hd : pat.dropLast ++ [pat.getLast hp] = pat := List.dropLast_concat_getLast hp
          refine ⟨t ++ [pat.getLast hp] ++ b', ?_⟩
          calc pat ++ (t ++ [pat.getLast hp] ++ b') = (pat ++ t) ++ [pat.getLast hp] ++ b' := by simp
            _ = (c :: (a' ++ pat.dropLast)) ++ [pat.getLast hp] ++ b' := by rw [ht]
            _ = c :: (a' ++ (pat.dropLast ++ [pat.getLast hp]) ++ b') := by simp
            _ = _ := by rw [hd]
        · exact h2 hi

theorem breakOn_complete {pat a b : Txt} (hp : pat ≠ []) (h : ¬ pat <:+: a ++ pat.dropLast) :
    breakOn pat (a ++ pat ++ b) = some (a, b) := by
  induction a with
  | nil =>
    cases pat with
    | nil => exact absurd rfl hp
    | cons c cs =>
      simp only [List.nil_append, List.cons_append]
      rw [breakOn, if_pos]
      · simp
      · rw [List.isPrefixOf_iff_prefix]; exact ⟨b, by simp⟩
  | cons c cs ih =>
    simp only [List.cons_append]
    rw [breakOn, if_neg, ih]
    · rfl
    · intro hi; exact h (hi.trans (List.suffix_cons c _).isInfix)
    · intro hpre
      rw [List.isPrefixOf_iff_prefix] at hpre
      apply h
      have : (c :: cs ++ pat.dropLast) <+: c :: (cs ++ pat ++ b) := by
        refine ⟨[pat.getLast hp] ++ b, ?_⟩
        have hd : pat.dropLast ++ [pat.getLast hp] = pat := List.dropLast_concat_getLast hp
        calc c :: cs ++ pat.dropLast ++ ([pat.getLast hp] ++ b) = c :: cs ++ (pat.dropLast ++ [pat.getLast hp]) ++ b := by simp
          _ = _ := by rw [hd]; simp
      exact (List.prefix_of_prefix_length_le hpre this (by
        simp only [List.length_append, List.length_cons, List.length_dropLast]
        omega)).isInfix

theorem breakOn_none_iff {pat s : Txt} (hp : pat ≠ []) : breakOn pat s = none ↔ ¬ pat <:+: s := by
  refine ⟨fun h hi => ?_, breakOn_none⟩
  induction s with
  | nil => exact hp (by simpa using hi)
  | cons c cs ih =>
    rw [breakOn] at h
    by_cases hc : pat.isPrefixOf (c :: cs)
    · rw [if_pos hc] at h; cases h
    · rw [if_neg hc] at h
      rcases List.infix_cons_iff.mp hi with hi | hi
      · exact hc (List.isPrefixOf_iff_prefix.mpr hi)
      · exact ih (by simpa using h) hi

/-! ### tokens -/

/-- The token of a tag, from what is between the brackets. -/
def tagTok (inner : Txt) : Token := tagToken inner inner

theorem isPrefixOf_close {pat inner post : Txt} (h : ']' ∉ pat) :
    pat.isPrefixOf (inner ++ t!"]]]" ++ post) = pat.isPrefixOf inner := by
  rw [Bool.eq_iff_iff, List.isPrefixOf_iff_prefix, List.isPrefixOf_iff_prefix]
  exact ⟨prefix_key h, fun hp => hp.trans (by rw [List.append_assoc]; exact List.prefix_append _ _)⟩

theorem tagToken_eq (inner post : Txt) : tagToken (inner ++ t!"]]]" ++ post) inner = tagTok inner := by
  unfold tagTok tagToken
  rw [isPrefixOf_close (by decide), isPrefixOf_close (by decide), isPrefixOf_close (by decide), isPrefixOf_close (by decide), isPrefixOf_close (by decide)]

def pieceTok : Piece → Token
  | .text s => .text s
  | .newline => .newline
  | .tag inner => tagTok inner

theorem linePieces_tokens {l : Txt} {ps : List Piece} (h : LinePieces l ps) (fuel : Nat) (hf : l.length < fuel) :
    lineTokens fuel l = ps.map pieceTok ++ [.newline] := by
  induction h generalizing fuel with
  | blank =>
    cases fuel with
    | zero => simp at hf
    | succ f => rw [lineTokens, breakOn_none (by simp)]; rfl
  | @text s h0 h =>
    cases fuel with
    | zero => simp at hf
    | succ f => rw [lineTokens, breakOn_none h]; simp [h0, pieceTok]
  | @tag pre inner post ps h1 h2 h3 ih =>
    cases fuel with
    | zero => simp at hf
    | succ f =>
      have e : pre ++ t!"[[[" ++ inner ++ t!"]]]" ++ post = pre ++ t!"[[[" ++ (inner ++ t!"]]]" ++ post) := by simp
      rw [lineTokens, e, breakOn_complete (by simp) h1]
      simp only
      rw [breakOn_complete (by simp) h2]
      simp only
      rw [tagToken_eq, ih f (by simp at hf; omega)]
      simp [pieceTok]

theorem pieces_tokens {s : Txt} {ps : List Piece} (h : Pieces s ps) : tokenize s = ps.map pieceTok := by
  unfold tokenize
  induction h with
  | line hl h => rw [splitChar_none hl]; simp [linePieces_tokens h _ (Nat.lt_succ_self _), pieceTok]
  | lines hl h _ ih =>
    rw [splitChar_append hl, List.flatMap_cons, ih, linePieces_tokens h _ (Nat.lt_succ_self _)]
    simp [pieceTok]

theorem line_cases (n : Nat) : ∀ l : Txt, l.length < n → (∃ ps, LinePieces l ps) ∨ Unterminated l := by
  induction n with
  | zero => intro l h; omega
  | succ n ih =>
    intro l hl
    cases e : breakOn (t!"[[[") l with
    | none =>
      by_cases h0 : l = []
      · subst h0; exact .inl ⟨_, .blank⟩
      · exact .inl ⟨_, .text h0 ((breakOn_none_iff (by simp)).mp e)⟩
    | some r =>
      obtain ⟨pre, rest⟩ := r
      obtain ⟨rfl, h1⟩ := breakOn_sound (by simp) e
      cases e2 : breakOn (t!"]]]") rest with
      | none => exact .inr (.here h1 ((breakOn_none_iff (by simp)).mp e2))
      | some r =>
        obtain ⟨inner, post⟩ := r
        obtain ⟨rfl, h2⟩ := breakOn_sound (by simp) e2
        have e3 : pre ++ t!"[[[" ++ (inner ++ t!"]]]" ++ post) = pre ++ t!"[[[" ++ inner ++ t!"]]]" ++ post := by simp
        rw [e3] at hl ⊢
        rcases ih post (by simp at hl; omega) with ⟨ps, h⟩ | h
        · exact .inl ⟨_, .tag h1 h2 h⟩
        · exact .inr (.later h1 h2 h)

theorem unterminated_tokens {l : Txt} (h : Unterminated l) (fuel : Nat) (hf : l.length < fuel) : Token.unterminated ∈ lineTokens fuel l := by
  induction h generalizing fuel with
  | @here pre rest h1 h2 =>
    cases fuel with
    | zero => simp at hf
    | succ f =>
      rw [lineTokens, breakOn_complete (by simp) h1]
      simp only
      rw [breakOn_none h2]
      simp
  | @later pre inner post h1 h2 h3 ih =>
    cases fuel with
    | zero => simp at hf
    | succ f =>
      have e : pre ++ t!"[[[" ++ inner ++ t!"]]]" ++ post = pre ++ t!"[[[" ++ (inner ++ t!"]]]" ++ post) := by simp
      rw [lineTokens, e, breakOn_complete (by simp) h1]
      simp only
      rw [breakOn_complete (by simp) h2]
      simp only
      exact List.mem_cons_of_mem _ (List.mem_cons_of_mem _ (ih f (by simp at hf; omega)))

theorem split_lines_ex (s : Txt) : ∃ ls, ls ≠ [] ∧ (∀ l ∈ ls, '\n' ∉ l) ∧ s = joinTxt ['\n'] ls := by
  induction s with
  | nil => exact ⟨[[]], by simp, by simp, rfl⟩
  | cons c s ih =>
    obtain ⟨ls, h0, h1, h2⟩ := ih
    cases ls with
    | nil => exact absurd rfl h0
    | cons l ls =>
      by_cases hc : c = '\n'
      · subst hc
        refine ⟨[] :: l :: ls, by simp, by simpa using h1, ?_⟩
        rw [h2]; simp [joinTxt]
      · refine ⟨(c :: l) :: ls, by simp, ?_, ?_⟩
        · intro x hx
          rcases List.mem_cons.mp hx with rfl | hx
          · simp only [List.mem_cons, not_or]; exact ⟨fun e => hc e.symm, h1 l (by simp)⟩
          · exact h1 x (by simp [hx])
        · rw [h2]
          cases ls with
          | nil => rfl
          | cons m ls => simp [joinTxt]

theorem pieces_cases (s : Txt) : (∃ ps, Pieces s ps) ∨ ∃ ls l ms, ls ++ l :: ms = splitChar '\n' s ∧ Unterminated l := by
  obtain ⟨ls, h0, h1, rfl⟩ := split_lines_ex s
  rw [splitChar_join h1 h0]
  induction ls with
  | nil => exact absurd rfl h0
  | cons l ls ih =>
    have hl := h1 l (by simp)
    rcases line_cases _ l (Nat.lt_succ_self _) with ⟨ps, h⟩ | h
    · cases ls with
      | nil => exact .inl ⟨_, .line hl h⟩
      | cons m ls =>
        rcases ih (by simp) (fun x hx => h1 x (by simp [hx])) with ⟨qs, hq⟩ | ⟨as, x, bs, e, hu⟩
        · refine .inl ⟨ps ++ .newline :: qs, ?_⟩
          have := Pieces.lines hl h hq
          simpa [joinTxt] using this
        · exact .inr ⟨l :: as, x, bs, by simp [e], hu⟩
    · exact .inr ⟨[], l, ls, rfl, h⟩

theorem run_unterminated {ts : List Token} (h : Token.unterminated ∈ ts) (p : Proc) (i : Bool) : ∀ q, p.run i ts ≠ .ok q := by
  induction ts generalizing p i with
  | nil => simp at h
  | cons t ts ih =>
    intro q hq
    by_cases ht : t = .unterminated
    · subst ht
      rw [run_error (e := .codegen) (by simp [Proc.step])] at hq; cases hq
    · have h' : Token.unterminated ∈ ts := by
        rcases List.mem_cons.mp h with h | h
        · exact absurd h.symm ht
        · exact h
      cases e : p.step i t with
      | error e' => rw [run_error e] at hq; cases hq
      | ok r =>
        obtain ⟨p', j⟩ := r
        rw [run_cons e] at hq
        exact ih h' p' j q hq

/-! ### The meaning of tags -/

theorem _root_.Ystring.Spec.Spaces.all {a : Txt} (h : Spaces a) : ∀ c ∈ a, isSpace c = true :=
  fun c hc => (blankChar_eq c).symm.trans (h c hc)

theorem _root_.Ystring.Spec.Word.all {a : Txt} (h : Word a) : ∀ c ∈ a, isSpace c = false :=
  fun c hc => (blankChar_eq c).symm.trans (h.2 c hc)

theorem spaces_all {a : Txt} (h : Spaces a) (s : Txt) : wordsFrom [] (a ++ s) = wordsFrom [] s := wordsFrom_spaces h.all s

theorem words_spaces {a : Txt} (h : Spaces a) : wordsFrom [] a = [] := by
  have := wordsFrom_spaces h.all []
  simpa [wordsFrom] using this

theorem wordsFrom_word {w key r : Txt} (h : ∀ c ∈ key, isSpace c = false) : wordsFrom w (key ++ r) = wordsFrom (w ++ key) r := by
  induction key generalizing w with
  | nil => simp
  | cons c cs ih =>
    rw [List.cons_append, wordsFrom, if_neg (by simp [h c (by simp)]), ih (fun x hx => h x (by simp [hx]))]
    simp

theorem words_one {a key r : Txt} (ha : Spaces a) (hk : Word key) (hr : ∀ c, r.head? = some c → isSpace c = true) :
    words (a ++ key ++ r) = key :: words r := by
  unfold words
  rw [List.append_assoc, wordsFrom_spaces ha.all, wordsFrom_word hk.all, List.nil_append, wordsFrom_end hk.1 hr]

/-- The first word of a text. -/
theorem first_word (s : Txt) : Spaces s ∨ ∃ a w r, Spaces a ∧ Word w ∧ (∀ c, r.head? = some c → isSpace c = true) ∧ s = a ++ w ++ r := by
  induction s with
  | nil => exact .inl (by simp [Spaces])
  | cons c s ih =>
    cases hc : isSpace c with
    | true =>
      rcases ih with h | ⟨a, w, r, ha, hw, hr, rfl⟩
      · exact .inl (by intro x hx; rcases List.mem_cons.mp hx with rfl | hx; exact (blankChar_eq _).trans hc; exact h x hx)
      · exact .inr ⟨c :: a, w, r, by intro x hx; rcases List.mem_cons.mp hx with rfl | hx; exact (blankChar_eq _).trans hc; exact ha x hx, hw, hr, by simp⟩
    | false =>
      refine .inr ⟨[], c :: s.takeWhile (fun x => !isSpace x), s.dropWhile (fun x => !isSpace x), by simp [Spaces], ⟨by simp, ?_⟩, ?_, by simp⟩
      · intro x hx
        rw [blankChar_eq]
        rcases List.mem_cons.mp hx with rfl | hx
        · exact hc
        · have : ∀ (l : Txt), x ∈ l.takeWhile (fun x => !isSpace x) → isSpace x = false := by
            intro l
            induction l with
            | nil => simp
            | cons y l ih2 =>
              intro hm
              rw [List.takeWhile_cons] at hm
              split at hm
              · rename_i hy
                rcases List.mem_cons.mp hm with rfl | hm
                · simpa using hy
                · exact ih2 hm
              · simp at hm
          exact this s hx
      · intro x hx
        have := List.head?_dropWhile_not (fun x => !isSpace x) s
        rw [hx] at this
        simpa using this

theorem two_words {d s key : Txt} (hd : Word d) (hs : ∀ c, s.head? = some c → isSpace c = true) :
    (∃ x, words (d ++ s) = [x, key]) ↔ OneWord s key := by
  have e : words (d ++ s) = d :: words s := by
    have := words_one (a := []) (by simp [Spaces]) hd hs
    simpa using this
  rw [e]
  constructor
  · rintro ⟨x, hx⟩
    simp only [List.cons.injEq] at hx
    obtain ⟨-, hx⟩ := hx
    rcases first_word s with h | ⟨a, w, r, ha, hw, hr, rfl⟩
    · rw [words, words_spaces h] at hx; cases hx
    · rw [words_one ha hw hr] at hx
      simp only [List.cons.injEq] at hx
      obtain ⟨rfl, hx⟩ := hx
      refine ⟨hw, a, r, ha, ?_, rfl⟩
      rcases first_word r with h | ⟨a2, w2, r2, ha2, hw2, hr2, rfl⟩
      · exact h
      · rw [words_one ha2 hw2 hr2] at hx; cases hx
  · rintro ⟨hk, a, b, ha, hb, rfl⟩
    refine ⟨d, ?_⟩
    rw [words_one ha hk (by
      intro c hc
      exact hb.all c (List.mem_of_mem_head? (by rw [hc]; exact rfl))), words, words_spaces hb]

theorem tagTok_if {s key : Txt} (h : OneWord s key) : tagTok (t!"IF " ++ s) = .ifTok key := by
  unfold tagTok tagToken
  rw [if_pos (by simp [List.isPrefixOf])]
  obtain ⟨x, hx⟩ := (two_words (d := t!"IF") (s := ' ' :: s) (key := key) ⟨by simp, by decide⟩ (by simp; decide)).mpr (by
    obtain ⟨hk, a, b, ha, hb, rfl⟩ := h
    exact ⟨hk, ' ' :: a, b, by intro c hc; rcases List.mem_cons.mp hc with rfl | hc; decide; exact ha c hc, hb, by simp⟩)
  rw [show t!"IF " ++ s = t!"IF" ++ ' ' :: s from rfl, hx]

theorem tagTok_elif {s key : Txt} (h : OneWord s key) : tagTok (t!"ELIF " ++ s) = .elifTok key := by
  unfold tagTok tagToken
  rw [if_neg (by simp [List.isPrefixOf]), if_pos (by simp [List.isPrefixOf])]
  obtain ⟨x, hx⟩ := (two_words (d := t!"ELIF") (s := ' ' :: s) (key := key) ⟨by simp, by decide⟩ (by simp; decide)).mpr (by
    obtain ⟨hk, a, b, ha, hb, rfl⟩ := h
    exact ⟨hk, ' ' :: a, b, by intro c hc; rcases List.mem_cons.mp hc with rfl | hc; decide; exact ha c hc, hb, by simp⟩)
  rw [show t!"ELIF " ++ s = t!"ELIF" ++ ' ' :: s from rfl, hx]

theorem tagTok_else {inner : Txt} (h : (t!"ELSE") <+: inner) : tagTok inner = .elseTok := by
  obtain ⟨s, rfl⟩ := h
  unfold tagTok tagToken
  simp [List.isPrefixOf]

theorem tagTok_endif {inner : Txt} (h : (t!"ENDIF") <+: inner) : tagTok inner = .endif := by
  obtain ⟨s, rfl⟩ := h
  unfold tagTok tagToken
  simp [List.isPrefixOf]

/-- The token of a tag with the given meaning; two forms of malformed assignments. -/
def metaTok : Tag → Token → Prop
  | .value key, t => t = .expand key
  | .assign key v, t => t = .set (key ++ '=' :: v)
  | .malformed, t => ∃ s, t = .set s ∧ ('=' ∉ s ∨ ∃ v, s = '=' :: v)
  | .mark, t => t = .push
  | .tab, t => t = .align
  | .unmark, t => t = .pop

theorem lstrip_spaces {a : Txt} (h : Spaces a) (s : Txt) : lstrip (a ++ s) = lstrip s := by
  unfold lstrip
  induction a with
  | nil => rfl
  | cons c a ih =>
    rw [List.cons_append, List.dropWhile_cons_of_pos (by rw [h.all c (by simp)]), ih (fun x hx => h x (by simp [hx]))]

theorem lstrip_word {c : Char} (h : isSpace c = false) (s : Txt) : lstrip (c :: s) = c :: s := by
  unfold lstrip
  rw [List.dropWhile_cons_of_neg (by simp [h])]

theorem tagTok_set (s : Txt) : tagTok (t!"SET " ++ s) = .set (lstrip s) := by
  unfold tagTok tagToken
  simp [List.isPrefixOf]

theorem means_tok {inner : Txt} {m : Tag} (h : Means inner m) : metaTok m (tagTok inner) := by
  cases h with
  | value h1 h2 h3 h4 =>
    show tagTok inner = .expand inner
    unfold Directive at h1
    simp only [not_or, ← List.isPrefixOf_iff_prefix] at h1
    unfold tagTok tagToken
    rw [if_neg h1.1, if_neg h1.2.1, if_neg h2, if_neg h3, if_neg h4, if_neg h1.2.2.1, if_neg h1.2.2.2.1, if_neg h1.2.2.2.2]
  | @assign a c key v ha hc hk =>
    show tagTok _ = .set _
    rw [show t!"SET " ++ a ++ c :: key ++ '=' :: v = t!"SET " ++ (a ++ c :: (key ++ '=' :: v)) by simp, tagTok_set, lstrip_spaces ha, lstrip_word ((blankChar_eq c).symm.trans hc)]
    rfl
  | @noKey a v ha =>
    refine ⟨'=' :: v, ?_, .inr ⟨v, rfl⟩⟩
    rw [List.append_assoc, tagTok_set, lstrip_spaces ha, lstrip_word (by decide)]
  | @noValue s hs =>
    refine ⟨lstrip s, tagTok_set s, .inl fun h => hs ?_⟩
    exact (List.dropWhile_suffix _).subset h
  | mark => exact (by decide +kernel : tagTok (t!">") = .push)
  | tab => exact (by decide +kernel : tagTok (t!"|") = .align)
  | unmark => exact (by decide +kernel : tagTok (t!"<") = .pop)

/-- Every tag is one of these. -/
theorem tag_cases (inner : Txt) : (∃ m, Means inner m) ∨ (∃ s key, inner = t!"IF " ++ s ∧ OneWord s key) ∨
    (∃ s key, inner = t!"ELIF " ++ s ∧ OneWord s key) ∨ (t!"ELSE") <+: inner ∨ (t!"ENDIF") <+: inner ∨ tagTok inner = .notAPair := by
  by_cases h1 : (t!"IF ") <+: inner
  · obtain ⟨s, rfl⟩ := h1
    by_cases hw : ∃ key, OneWord s key
    · obtain ⟨key, hw⟩ := hw
      exact .inr (.inl ⟨s, key, rfl, hw⟩)
    · refine .inr (.inr (.inr (.inr (.inr ?_))))
      unfold tagTok tagToken
      rw [if_pos (by simp [List.isPrefixOf])]
      split
      · rename_i x key e
        refine absurd ((two_words (d := t!"IF") (s := ' ' :: s) (key := key) ⟨by simp, by decide⟩ (by simp; decide)).mp ⟨x, e⟩) ?_
        rintro ⟨hk, a, b, ha, hb, e⟩
        cases a with
        | nil =>
          cases key with
          | nil => exact hk.1 rfl
          | cons k ks =>
            injection e with e _
            have := hk.2 k (by simp)
            rw [← e] at this
            exact absurd this (by decide)
        | cons x a =>
          injection e with _ e
          exact hw ⟨key, hk, a, b, fun c hc => ha c (by simp [hc]), hb, e⟩
      · rfl
  by_cases h2 : (t!"ELIF ") <+: inner
  · obtain ⟨s, rfl⟩ := h2
    by_cases hw : ∃ key, OneWord s key
    · obtain ⟨key, hw⟩ := hw
      exact .inr (.inr (.inl ⟨s, key, rfl, hw⟩))
    · refine .inr (.inr (.inr (.inr (.inr ?_))))
      unfold tagTok tagToken
      rw [if_neg (by simp [List.isPrefixOf]), if_pos (by simp [List.isPrefixOf])]
      split
      · rename_i x key e
        refine absurd ((two_words (d := t!"ELIF") (s := ' ' :: s) (key := key) ⟨by simp, by decide⟩ (by simp; decide)).mp ⟨x, e⟩) ?_
        rintro ⟨hk, a, b, ha, hb, e⟩
        cases a with
        | nil =>
          cases key with
          | nil => exact hk.1 rfl
          | cons k ks =>
            injection e with e _
            have := hk.2 k (by simp)
            rw [← e] at this
            exact absurd this (by decide)
        | cons x a =>
          injection e with _ e
          exact hw ⟨key, hk, a, b, fun c hc => ha c (by simp [hc]), hb, e⟩
      · rfl
  by_cases h3 : (t!"ELSE") <+: inner
  · exact .inr (.inr (.inr (.inl h3)))
  by_cases h4 : (t!"ENDIF") <+: inner
  · exact .inr (.inr (.inr (.inr (.inl h4))))
  refine .inl ?_
  by_cases h5 : (t!"SET ") <+: inner
  · obtain ⟨s, rfl⟩ := h5
    by_cases he : '=' ∈ s
    · have hsplit : ∀ s : Txt, ∃ a t, Spaces a ∧ s = a ++ t ∧ ∀ c, t.head? = some c → isSpace c = false := by
        intro s
        rcases first_word s with h | ⟨a, w, r, ha, hw, hr, rfl⟩
        · exact ⟨s, [], h, by simp, by simp⟩
        · refine ⟨a, w ++ r, ha, by simp, ?_⟩
          cases w with
          | nil => exact absurd rfl hw.1
          | cons c w => simp only [List.cons_append, List.head?_cons, Option.some.injEq]; rintro _ rfl; exact hw.all _ (by simp)
      obtain ⟨a, t, ha, rfl, ht⟩ := hsplit s
      have het : '=' ∈ t := by
        rcases List.mem_append.mp he with h | h
        · exact absurd (ha _ h) (by decide)
        · exact h
      obtain ⟨k, v, rfl, hk⟩ : ∃ k v, t = k ++ '=' :: v ∧ '=' ∉ k := by
        clear ht he h1 h2 h3 h4
        induction t with
        | nil => simp at het
        | cons c t ih =>
          by_cases hc : c = '='
          · exact ⟨[], t, by simp [hc], by simp⟩
          · obtain ⟨k, v, rfl, hk⟩ := ih (by
              rcases List.mem_cons.mp het with h | h
              · exact absurd h.symm hc
              · exact h)
            exact ⟨c :: k, v, rfl, by simp only [List.mem_cons, not_or]; exact ⟨fun e => hc e.symm, hk⟩⟩
      cases k with
      | nil => exact ⟨_, by simpa using Means.noKey (v := v) ha⟩
      | cons c k =>
        have := Means.assign (v := v) ha ((blankChar_eq c).trans (ht c (by simp))) hk
        exact ⟨_, by simpa using this⟩
    · exact ⟨_, .noValue he⟩
  by_cases h6 : inner = t!"|"
  · subst h6; exact ⟨_, .tab⟩
  by_cases h7 : inner = t!">"
  · subst h7; exact ⟨_, .mark⟩
  by_cases h8 : inner = t!"<"
  · subst h8; exact ⟨_, .unmark⟩
  exact ⟨_, .value (by unfold Directive; simp only [not_or]; exact ⟨h1, h2, h3, h4, h5⟩) h6 h7 h8⟩

/-! ### Running -/

/-- The processor with the given page and scopes. -/
def procOf (p : Page) (sc : List Scope) : Proc := ⟨p.lines, p.line, p.column, sc, p.marks, p.dict⟩

theorem step_flag {t : Token} (h : t ≠ .newline) (p : Proc) (i j : Bool) : p.step i t = p.step j t := by
  cases t <;> simp_all [Proc.step]

theorem run_flag {t : Token} (h : t ≠ .newline) (p : Proc) (i j : Bool) (ts : List Token) : p.run i (t :: ts) = p.run j (t :: ts) := by
  rw [Proc.run, Proc.run, step_flag h p i j]

theorem lastLine_append {a b : Txt} (h : '\n' ∉ b) : lastLine (a ++ '\n' :: b) = b := by
  unfold lastLine
  have : ∀ c ∈ b.reverse, (fun c : Char => decide (c ≠ '\n')) c = true := by
    intro c hc; simp at hc ⊢; intro e; exact h (e ▸ hc)
  rw [List.reverse_append, List.reverse_cons, List.append_assoc, List.takeWhile_append_of_pos this]
  simp

theorem split_last {s : Txt} (h : '\n' ∈ s) : ∃ a b, s = a ++ '\n' :: b ∧ '\n' ∉ b := by
  induction s with
  | nil => simp at h
  | cons c s ih =>
    by_cases hs : '\n' ∈ s
    · obtain ⟨a, b, rfl, hb⟩ := ih hs
      exact ⟨c :: a, b, rfl, hb⟩
    · rcases List.mem_cons.mp h with h | h
      · subst h; exact ⟨[], s, rfl, hs⟩
      · exact absurd h hs

theorem splitChar_last {a b : Txt} (hb : '\n' ∉ b) :
    splitChar '\n' (a ++ '\n' :: b) = splitChar '\n' a ++ [b] := by
  induction a with
  | nil => simp [splitChar, splitChar_none hb]
  | cons c a ih =>
    rw [List.cons_append, splitChar, splitChar]
    by_cases hc : c = '\n'
    · simp [hc, ih]
    · rw [if_neg hc, if_neg hc, ih]
      cases e : splitChar '\n' a with
      | nil => exact absurd e (splitChar_ne_nil _ _)
      | cons l ls => rfl

theorem joinTxt_split (a : Txt) : joinTxt ['\n'] (splitChar '\n' a) = a := by
  obtain ⟨ls, h0, h1, rfl⟩ := split_lines_ex a
  rw [splitChar_join h1 h0]

theorem write_eq (p : Page) (sc : List Scope) (s : Txt) : (procOf p sc).addText s = procOf (p.write s) sc := by
  by_cases h : '\n' ∈ s
  · obtain ⟨a, b, rfl, hb⟩ := split_last h
    unfold Page.write Proc.addText
    rw [if_pos h, lastLine_append hb, splitChar_last hb]
    have hl : ¬ (splitChar '\n' a ++ [b]).length = 1 := by
      have := List.length_pos_iff.mpr (splitChar_ne_nil '\n' a)
      simp
      exact splitChar_ne_nil _ _
    simp only
    rw [if_neg hl]
    simp only [List.dropLast_concat, joinTxt_split, List.getLastD_concat]
    unfold procOf
    have e1 : (a ++ '\n' :: b).take ((a ++ '\n' :: b).length - b.length - 1) = a := by
      rw [show (a ++ '\n' :: b).length - b.length - 1 = a.length by simp; omega]
      simp
    have e2 : (a ++ '\n' :: b).length - a.length + 1 = b.length + 2 := by simp
    simp only [e1, e2]
  · rw [addText_line _ h]
    unfold Page.write
    rw [if_neg h]
    rfl

theorem indentation_eq (p : Page) (sc : List Scope) : (procOf p sc).indentation = indent p.line := rfl

theorem alignment_eq (p : Page) (sc : List Scope) : (procOf p sc).alignment = margin p.line p.column := rfl

theorem writeLines_eq (p : Page) (sc : List Scope) (ls : List Txt) : (procOf p sc).addLines ls = procOf (p.writeLines ls) sc := by
  match ls with
  | [] => rfl
  | [l] => rfl
  | l :: m :: ls =>
    unfold Proc.addLines Page.writeLines
    simp only
    rw [if_neg (by simp)]
    rw [← write_eq]
    have : ∀ l : Txt, (if l ≠ [] then (margin (p.line ++ l) p.column) ++ l else []) = if l = [] then [] else (margin (p.line ++ l) p.column) ++ l := by
      intro l; by_cases h : l = [] <;> simp [h]
    simp [procOf, margin, Proc.alignment, Proc.indentation, indent]

theorem breakOn_one {c : Char} {a b : Txt} (h : c ∉ a) : breakOn [c] (a ++ c :: b) = some (a, b) := by
  have := breakOn_complete (pat := [c]) (a := a) (b := b) (by simp) (by
    simp only [List.dropLast_singleton, List.append_nil]
    intro hi; exact h (hi.subset (by simp)))
  simpa using this

theorem splitKey_eq (key : Txt) (d : List (Txt × Val)) :
    (splitKey key).bind (valueOf d) = look d key := by
  unfold splitKey look
  by_cases h : '(' ∈ key
  · rw [if_pos h]
    obtain ⟨a, b, rfl, ha⟩ : ∃ a b, key = a ++ '(' :: b ∧ '(' ∉ a := by
      clear d
      induction key with
      | nil => simp at h
      | cons c t ih =>
        by_cases hc : c = '('
        · exact ⟨[], t, by simp [hc], by simp⟩
        · obtain ⟨k, v, rfl, hk⟩ := ih (by
            rcases List.mem_cons.mp h with h | h
            · exact absurd h.symm hc
            · exact h)
          exact ⟨c :: k, v, rfl, by simp only [List.mem_cons, not_or]; exact ⟨fun e => hc e.symm, hk⟩⟩
    rw [breakOn_one ha]
    have e : (a ++ '(' :: b).takeWhile (· ≠ '(') = a := by
      rw [List.takeWhile_append_of_pos (by intro c hc; simp; intro e; exact ha (e ▸ hc))]
      simp
    simp only [e]
    have e2 : (a ++ '(' :: b).drop (a.length + 1) = b := by simp
    rw [e2]
    by_cases h2 : ')' ∈ b
    · rw [if_pos h2]
      cases e3 : breakOn [')'] b with
      | none =>
        refine absurd ?_ ((breakOn_none_iff (by simp)).mp e3)
        obtain ⟨x, y, rfl⟩ := List.append_of_mem h2
        exact ⟨x, y, by simp⟩
      | some r => rfl
    · rw [if_neg h2, breakOn_none (by intro hi; exact h2 (hi.subset (by simp)))]
      rfl
  · rw [if_neg h, breakOn_none (by intro hi; exact h (hi.subset (by simp)))]
    rfl

theorem expandKey_look (p : Page) (sc : List Scope) (key : Txt) : (procOf p sc).expandKey key = look p.dict key := by
  rw [← splitKey_eq]
  rfl

theorem step_tag {inner : Txt} {m : Tag} (h : Means inner m) (p : Page) (sc : List Scope) (i : Bool) :
    (procOf p (.active :: sc)).step i (tagTok inner) = match m.eval p with
      | .error e => .error e
      | .ok q => .ok (procOf q.1 (.active :: sc), q.2) := by
  have ht : (procOf p (.active :: sc)).top = .active := rfl
  have hm := means_tok h
  cases m with
  | value key =>
    have e : tagTok inner = .expand key := hm
    rw [e]
    have hx := expandKey_look p (.active :: sc) key
    cases hv : look p.dict key with
    | error e => rw [hv] at hx; simp [Proc.step, ht, Proc.handleExpand, hx, Tag.eval, hv, bind, Except.bind]
    | ok v =>
      rw [hv] at hx
      simp only [Proc.step, ht, Proc.handleExpand, hx, Tag.eval, hv, bind, Except.bind]
      cases v with
      | none => simp [block, Page.put, Page.blank]; rfl
      | str s =>
        by_cases hs : s = []
        · simp [hs, block, Page.put, Page.blank]; rfl
        · simp [hs, block, Page.put, write_eq]
      | list ls =>
        by_cases hs : ls = []
        · simp [hs, block, Page.put, Page.writeLines, Page.blank]; rfl
        · simp [hs, block, Page.put, writeLines_eq]
      | int n => simp [block, Page.put, write_eq]
      | bool b => simp [block, Page.put, write_eq]
  | assign key v =>
    have e : tagTok inner = .set (key ++ '=' :: v) := hm
    have hk : key ≠ [] ∧ '=' ∉ key := by
      cases h with
      | assign _ _ h => exact ⟨by simp, h⟩
    rw [e]
    simp [Proc.step, ht, Proc.handleSet, breakOn_one hk.2, hk.1, Tag.eval, bind, Except.bind, Page.blank]
    exact ⟨rfl, rfl⟩
  | malformed =>
    obtain ⟨s, e, hs⟩ := hm
    rw [e]
    rcases hs with hs | ⟨v, rfl⟩
    · have : breakOn ['='] s = none := breakOn_none (fun hi => hs (hi.subset (by simp)))
      simp [Proc.step, ht, Proc.handleSet, this, Tag.eval, bind, Except.bind]
    · have := breakOn_one (c := '=') (a := []) (b := v) (by simp)
      rw [List.nil_append] at this
      simp [Proc.step, ht, Proc.handleSet, this, Tag.eval, bind, Except.bind]
  | mark =>
    have e : tagTok inner = .push := hm
    rw [e]
    simp [Proc.step, ht, Tag.eval]; rfl
  | tab =>
    have e : tagTok inner = .align := hm
    rw [e]
    cases hq : p.marks with
    | nil => simp [Proc.step, Tag.eval, procOf, hq]; rfl
    | cons x xs => simp [Proc.step, Tag.eval, procOf, hq]; rfl
  | unmark =>
    have e : tagTok inner = .pop := hm
    rw [e]
    cases hq : p.marks with
    | nil => simp [Proc.step, Tag.eval, procOf, hq]; rfl
    | cons x xs => simp [Proc.step, Tag.eval, procOf, hq]; rfl

theorem step_text_page (p : Page) (sc : List Scope) (s : Txt) (i : Bool) :
    (procOf p (.active :: sc)).step i (.text s) = .ok (procOf (p.write s) (.active :: sc), false) := by
  have ht : (procOf p (.active :: sc)).top = .active := rfl
  simp [Proc.step, ht, write_eq]

theorem step_newline_page (p : Page) (sc : List Scope) (i : Bool) (hi : i = true → p.blank = true) :
    (procOf p (.active :: sc)).step i .newline = .ok (procOf (p.endLine i) (.active :: sc), false) := by
  have ht : (procOf p (.active :: sc)).top = .active := rfl
  cases i with
  | false => simp [Proc.step, Proc.handleNewline, ht, Page.endLine]; rfl
  | true =>
    have hb : isEmptyOrSpace (procOf p (.active :: sc)).cur = true := (blankText_eq _).symm.trans (hi rfl)
    simp [Proc.step, hb, Page.endLine]; rfl

theorem step_newline_skip (p : Page) (x : Scope) (hx : x ≠ .active) (sc : List Scope) (i : Bool) (hi : i = true → p.blank = true) :
    (procOf p (x :: sc)).step i .newline = .ok (procOf (if i then { p with line := [] } else p) (x :: sc), false) := by
  have ht : (procOf p (x :: sc)).top = x := rfl
  cases i with
  | false => simp [Proc.step, Proc.handleNewline, ht, hx]
  | true =>
    have hb : isEmptyOrSpace (procOf p (x :: sc)).cur = true := (blankText_eq _).symm.trans (hi rfl)
    simp [Proc.step, hb]; rfl

theorem step_pass (p : Page) (x : Scope) (hx : x ≠ .active) (sc : List Scope) (i : Bool) {t : Token}
    (h : (∃ s, t = .text s) ∨ ∃ m, metaTok m t) : (procOf p (x :: sc)).step i t = .ok (procOf p (x :: sc), false) := by
  have ht : (procOf p (x :: sc)).top = x := rfl
  have hx' : x = .inactive ∨ x = .done := by cases x <;> simp_all
  rcases h with ⟨s, rfl⟩ | ⟨m, hm⟩
  · rcases hx' with rfl | rfl <;> simp [Proc.step, ht]
  · cases m with
    | value key => cases hm; rcases hx' with rfl | rfl <;> simp [Proc.step, ht]
    | assign key v => cases hm; rcases hx' with rfl | rfl <;> simp [Proc.step, ht]
    | malformed => obtain ⟨s, rfl, -⟩ := hm; rcases hx' with rfl | rfl <;> simp [Proc.step, ht]
    | mark => cases hm; rcases hx' with rfl | rfl <;> simp [Proc.step, ht]
    | tab => cases hm; rcases hx' with rfl | rfl <;> simp [Proc.step, ht]
    | unmark => cases hm; rcases hx' with rfl | rfl <;> simp [Proc.step, ht]

theorem step_if_pass (p : Page) (x : Scope) (hx : x ≠ .active) (sc : List Scope) (i : Bool) (key : Txt) :
    (procOf p (x :: sc)).step i (.ifTok key) = .ok (procOf p (.done :: x :: sc), p.blank) := by
  have ht : (procOf p (x :: sc)).top = x := rfl
  simp [Proc.step, Proc.handleIf, ht, hx, bind, Except.bind, Page.blank]
  exact ⟨rfl, rfl⟩

theorem step_endif_page (p : Page) (x y : Scope) (sc : List Scope) (i : Bool) :
    (procOf p (x :: y :: sc)).step i .endif = .ok (procOf p (y :: sc), p.blank) := by
  simp [Proc.step, Proc.handleEndif, procOf, bind, Except.bind, Page.blank]

theorem step_alt_done (p : Page) (sc : List Scope) (i : Bool) {t : Token} (h : t = .elseTok ∨ ∃ key, t = .elifTok key) :
    (procOf p (.done :: sc)).step i t = .ok (procOf p (.done :: sc), false) := by
  have ht : (procOf p (.done :: sc)).top = .done := rfl
  rcases h with rfl | ⟨key, rfl⟩ <;> simp [Proc.step, ht]

theorem step_alt_active (p : Page) (y : Scope) (sc : List Scope) (i : Bool) {t : Token} (h : t = .elseTok ∨ ∃ key, t = .elifTok key) :
    (procOf p (.active :: y :: sc)).step i t = .ok (procOf p (.done :: y :: sc), p.blank) := by
  rcases h with rfl | ⟨key, rfl⟩
  · simp [Proc.step, Proc.handleElse, procOf, Proc.top, bind, Except.bind, Page.blank]
  · simp [Proc.step, Proc.handleElif, procOf, Proc.top, bind, Except.bind, Page.blank]

theorem step_else_inactive (p : Page) (y : Scope) (sc : List Scope) (i : Bool) :
    (procOf p (.inactive :: y :: sc)).step i .elseTok = .ok (procOf p (.active :: y :: sc), p.blank) := by
  simp [Proc.step, Proc.handleElse, procOf, Proc.top, bind, Except.bind, Page.blank]

theorem step_elif_inactive (p : Page) (y : Scope) (sc : List Scope) (i : Bool) (key : Txt) :
    (procOf p (.inactive :: y :: sc)).step i (.elifTok key) = match look p.dict key with
      | .error e => .error e
      | .ok v => .ok (procOf p ((if v.truthy then .active else .inactive) :: y :: sc), p.blank) := by
  have ht : (procOf p (.inactive :: y :: sc)).top = .inactive := rfl
  have hl : (procOf p (.inactive :: y :: sc)).scope = .inactive :: y :: sc := rfl
  have hx := expandKey_look p (.inactive :: y :: sc) key
  cases hv : look p.dict key with
  | error e => rw [hv] at hx; simp [Proc.step, Proc.handleElif, ht, hl, hx, bind, Except.bind]
  | ok v =>
    rw [hv] at hx
    by_cases hb : v.truthy
    · simp [Proc.step, Proc.handleElif, ht, hl, hx, bind, Except.bind, hb, Page.blank]; exact ⟨rfl, rfl⟩
    · simp [Proc.step, Proc.handleElif, ht, hl, hx, bind, Except.bind, hb, Page.blank]; rfl

theorem step_if_active (p : Page) (sc : List Scope) (i : Bool) (key : Txt) :
    (procOf p (.active :: sc)).step i (.ifTok key) = match look p.dict key with
      | .error e => .error e
      | .ok v => .ok (procOf p ((if v.truthy then .active else .inactive) :: .active :: sc), p.blank) := by
  have ht : (procOf p (.active :: sc)).top = .active := rfl
  have hx := expandKey_look p (.active :: sc) key
  cases hv : look p.dict key with
  | error e => rw [hv] at hx; simp [Proc.step, Proc.handleIf, ht, hx, bind, Except.bind]
  | ok v =>
    rw [hv] at hx
    by_cases hb : v.truthy <;> simp [Proc.step, Proc.handleIf, ht, hx, bind, Except.bind, hb, Page.blank] <;> exact ⟨rfl, rfl⟩

theorem skip_page (p : Page) (i : Bool) (hi : i = true → p.blank = true) : (if i then { p with line := [] } else p : Page).blank = true ∨
    (if i then { p with line := [] } else p : Page) = p := by
  cases i
  · exact .inr rfl
  · exact .inl rfl

/-- The tokens of pieces. -/
def pieceToks (ps : List Piece) : List Token := ps.map pieceTok

theorem pieceToks_append (ps qs : List Piece) : pieceToks (ps ++ qs) = pieceToks ps ++ pieceToks qs := List.map_append

mutual
theorem prog_skip : (T : Prog) → T.Good → (p : Page) → (x : Scope) → x ≠ .active → (sc : List Scope) → (i : Bool) → (i = true → p.blank = true) →
    ∀ ts, ((T.skip p i).2 = true → (T.skip p i).1.blank = true) ∧
      (procOf p (x :: sc)).run i (pieceToks T.pieces ++ ts) = (procOf (T.skip p i).1 (x :: sc)).run (T.skip p i).2 ts
  | .done, _, p, x, hx, sc, i, hi, ts => ⟨hi, rfl⟩
  | .text s rest, h, p, x, hx, sc, i, hi, ts => by
    have ih := prog_skip rest h p x hx sc false (by simp) ts
    refine ⟨ih.1, ?_⟩
    rw [Prog.skip, ← ih.2]
    exact run_cons (step_pass p x hx sc i (.inl ⟨s, rfl⟩)) _
  | .newline rest, h, p, x, hx, sc, i, hi, ts => by
    have ih := prog_skip rest h (if i then { p with line := [] } else p) x hx sc false (by simp) ts
    refine ⟨ih.1, ?_⟩
    rw [Prog.skip, ← ih.2]
    exact run_cons (step_newline_skip p x hx sc i hi) _
  | .tag inner m rest, h, p, x, hx, sc, i, hi, ts => by
    have ih := prog_skip rest h.2 p x hx sc false (by simp) ts
    refine ⟨ih.1, ?_⟩
    rw [Prog.skip, ← ih.2]
    exact run_cons (step_pass p x hx sc i (.inr ⟨m, means_tok h.1⟩)) _
  | .cond inner key body more rest, h, p, x, hx, sc, i, hi, ts => by
    obtain ⟨⟨s, rfl, hk⟩, h2, h3, h4⟩ := h
    have e1 := prog_skip body h2 p .done (by simp) (x :: sc) p.blank (fun h => h) (pieceToks more.pieces ++ (pieceToks rest.pieces ++ ts))
    have e2 := branches_skip more h3 (body.skip p p.blank).1 x sc (body.skip p p.blank).2 (pieceToks rest.pieces ++ ts)
    have e3 := prog_skip rest h4 (more.skip (body.skip p p.blank).1) x hx sc (more.skip (body.skip p p.blank).1).blank (fun h => h) ts
    refine ⟨e3.1, ?_⟩
    rw [Prog.skip, ← e3.2, ← e2, ← e1.2, Prog.pieces]
    have := run_cons (ts := pieceToks (body.pieces ++ (more.pieces ++ rest.pieces)) ++ ts) (step_if_pass p x hx sc i key)
    rw [← tagTok_if hk] at this
    simpa [pieceToks, pieceTok] using this

theorem branches_skip : (B : Branches) → B.Good → (p : Page) → (y : Scope) → (sc : List Scope) → (i : Bool) → ∀ ts,
    (procOf p (.done :: y :: sc)).run i (pieceToks B.pieces ++ ts) = (procOf (B.skip p) (y :: sc)).run (B.skip p).blank ts
  | .endif inner, h, p, y, sc, i, ts => by
    have := run_cons (ts := ts) (step_endif_page p .done y sc i)
    rw [← tagTok_endif h] at this
    exact this
  | .els inner body more, h, p, y, sc, i, ts => by
    obtain ⟨h1, h2, h3⟩ := h
    have e1 := prog_skip body h2 p .done (by simp) (y :: sc) false (by simp) (pieceToks more.pieces ++ ts)
    have e2 := branches_skip more h3 (body.skip p false).1 y sc (body.skip p false).2 ts
    rw [Branches.skip, ← e2, ← e1.2, Branches.pieces]
    have := run_cons (ts := pieceToks (body.pieces ++ more.pieces) ++ ts) (step_alt_done p (y :: sc) i (.inl (tagTok_else h1)))
    simpa [pieceToks, pieceTok] using this
  | .elif inner key body more, h, p, y, sc, i, ts => by
    obtain ⟨⟨s, rfl, hk⟩, h2, h3⟩ := h
    have e1 := prog_skip body h2 p .done (by simp) (y :: sc) false (by simp) (pieceToks more.pieces ++ ts)
    have e2 := branches_skip more h3 (body.skip p false).1 y sc (body.skip p false).2 ts
    rw [Branches.skip, ← e2, ← e1.2, Branches.pieces]
    have := run_cons (ts := pieceToks (body.pieces ++ more.pieces) ++ ts) (step_alt_done p (y :: sc) i (.inr ⟨key, tagTok_elif hk⟩))
    simpa [pieceToks, pieceTok] using this
end

theorem branches_leave (B : Branches) (h : B.Good) (p : Page) (y : Scope) (sc : List Scope) (i : Bool) (ts : List Token) :
    (procOf p (.active :: y :: sc)).run i (pieceToks B.pieces ++ ts) = (procOf (B.leave p) (y :: sc)).run (B.leave p).blank ts := by
  cases B with
  | endif inner =>
    have := run_cons (ts := ts) (step_endif_page p .active y sc i)
    rw [← tagTok_endif h] at this
    exact this
  | els inner body more =>
    obtain ⟨h1, h2, h3⟩ := h
    have e1 := prog_skip body h2 p .done (by simp) (y :: sc) p.blank (fun h => h) (pieceToks more.pieces ++ ts)
    have e2 := branches_skip more h3 (body.skip p p.blank).1 y sc (body.skip p p.blank).2 ts
    rw [Branches.leave, ← e2, ← e1.2, Branches.pieces]
    have := run_cons (ts := pieceToks (body.pieces ++ more.pieces) ++ ts) (step_alt_active p y sc i (.inl (tagTok_else h1)))
    simpa [pieceToks, pieceTok] using this
  | elif inner key body more =>
    obtain ⟨⟨s, rfl, hk⟩, h2, h3⟩ := h
    have e1 := prog_skip body h2 p .done (by simp) (y :: sc) p.blank (fun h => h) (pieceToks more.pieces ++ ts)
    have e2 := branches_skip more h3 (body.skip p p.blank).1 y sc (body.skip p p.blank).2 ts
    rw [Branches.leave, ← e2, ← e1.2, Branches.pieces]
    have := run_cons (ts := pieceToks (body.pieces ++ more.pieces) ++ ts) (step_alt_active p y sc i (.inr ⟨key, tagTok_elif hk⟩))
    simpa [pieceToks, pieceTok] using this

theorem tag_eval_blank {m : Tag} {p : Page} {q : Page × Bool} (h : m.eval p = .ok q) (hq : q.2 = true) : q.1.blank = true := by
  cases m with
  | value key =>
    simp only [Tag.eval] at h
    cases hv : look p.dict key with
    | error e => rw [hv] at h; cases h
    | ok v =>
      rw [hv] at h
      simp only [bind, Except.bind, Except.ok.injEq] at h
      subst h
      simp only [Bool.and_eq_true, decide_eq_true_eq] at hq
      have : p.put v = p := by
        cases v with
        | none => rfl
        | str s => by_cases hs : s = [] <;> simp_all [block, Page.put]
        | list ls => by_cases hs : ls = [] <;> simp_all [block, Page.put, Page.writeLines]
        | int n => simp [block] at hq
        | bool b => simp [block] at hq
      simp only [this]
      exact hq.2
  | assign key v =>
    simp only [Tag.eval, Except.ok.injEq] at h
    subst h; exact hq
  | malformed => cases h
  | mark => simp only [Tag.eval, Except.ok.injEq] at h; subst h; cases hq
  | tab =>
    simp only [Tag.eval] at h
    split at h
    · cases h
    · simp only [Except.ok.injEq] at h; subst h; cases hq
  | unmark =>
    simp only [Tag.eval] at h
    split at h
    · cases h
    · simp only [Except.ok.injEq] at h; subst h; cases hq

/-- Going on after an evaluation. -/
def goOn (r : Except PyErr (Page × Bool)) (sc : List Scope) (ts : List Token) : Except PyErr Proc :=
  match r with
  | .error e => .error e
  | .ok q => (procOf q.1 sc).run q.2 ts

mutual
theorem prog_eval : (T : Prog) → T.Good → (p : Page) → (sc : List Scope) → (i : Bool) → (i = true → p.blank = true) →
    ∀ ts, (procOf p (.active :: sc)).run i (pieceToks T.pieces ++ ts) = goOn (T.eval p i) (.active :: sc) ts
  | .done, _, p, sc, i, hi, ts => rfl
  | .text s rest, h, p, sc, i, hi, ts => by
    rw [Prog.eval, ← prog_eval rest h (p.write s) sc false (by simp) ts]
    exact run_cons (step_text_page p sc s i) _
  | .newline rest, h, p, sc, i, hi, ts => by
    rw [Prog.eval, ← prog_eval rest h (p.endLine i) sc false (by simp) ts]
    exact run_cons (step_newline_page p sc i hi) _
  | .tag inner m rest, h, p, sc, i, hi, ts => by
    have hs := step_tag h.1 p sc i
    rw [Prog.eval]
    cases hm : m.eval p with
    | error e =>
      rw [hm] at hs
      exact run_error hs _
    | ok q =>
      rw [hm] at hs
      simp only [bind, Except.bind]
      rw [← prog_eval rest h.2 q.1 sc q.2 (tag_eval_blank hm) ts]
      exact run_cons hs _
  | .cond inner key body more rest, h, p, sc, i, hi, ts => by
    obtain ⟨⟨s, rfl, hk⟩, h2, h3, h4⟩ := h
    have hs := step_if_active p sc i key
    rw [← tagTok_if hk] at hs
    have e0 : pieceToks (Prog.cond (t!"IF " ++ s) key body more rest).pieces ++ ts =
        tagTok (t!"IF " ++ s) :: (pieceToks body.pieces ++ (pieceToks more.pieces ++ (pieceToks rest.pieces ++ ts))) := by
      simp [Prog.pieces, pieceToks, pieceTok]
    rw [e0, Prog.eval]
    cases hv : look p.dict key with
    | error e =>
      rw [hv] at hs
      exact run_error hs _
    | ok v =>
      rw [hv] at hs
      rw [run_cons hs]
      simp only [bind, Except.bind, isTrue_eq]
      by_cases hb : v.truthy
      · rw [if_pos hb, if_pos hb, prog_eval body h2 p (.active :: sc) p.blank (fun h => h)]
        cases hq : body.eval p p.blank with
        | error e => rfl
        | ok q =>
          simp only [goOn]
          rw [branches_leave more h3, prog_eval rest h4 (more.leave q.1) sc _ (fun h => h)]
          rfl
      · rw [if_neg hb, if_neg hb, (prog_skip body h2 p .inactive (by simp) (.active :: sc) p.blank (fun h => h) _).2,
          branches_eval more h3]
        cases hq : more.eval (body.skip p p.blank).1 with
        | error e => rfl
        | ok q =>
          simp only
          rw [prog_eval rest h4 q sc _ (fun h => h)]

theorem branches_eval : (B : Branches) → B.Good → (p : Page) → (sc : List Scope) → (i : Bool) →
    ∀ ts, (procOf p (.inactive :: .active :: sc)).run i (pieceToks B.pieces ++ ts) =
      match B.eval p with
      | .error e => .error e
      | .ok q => (procOf q (.active :: sc)).run q.blank ts
  | .endif inner, h, p, sc, i, ts => by
    have := run_cons (ts := ts) (step_endif_page p .inactive .active sc i)
    rw [← tagTok_endif h] at this
    exact this
  | .els inner body more, h, p, sc, i, ts => by
    obtain ⟨h1, h2, h3⟩ := h
    have hs := step_else_inactive p .active sc i
    rw [← tagTok_else h1] at hs
    have e0 : pieceToks (Branches.els inner body more).pieces ++ ts =
        tagTok inner :: (pieceToks body.pieces ++ (pieceToks more.pieces ++ ts)) := by
      simp [Branches.pieces, pieceToks, pieceTok]
    rw [e0, run_cons hs, Branches.eval, prog_eval body h2 p (.active :: sc) p.blank (fun h => h)]
    cases hq : body.eval p p.blank with
    | error e => rfl
    | ok q =>
      simp only [goOn, bind, Except.bind]
      rw [branches_leave more h3]
  | .elif inner key body more, h, p, sc, i, ts => by
    obtain ⟨⟨s, rfl, hk⟩, h2, h3⟩ := h
    have hs := step_elif_inactive p .active sc i key
    rw [← tagTok_elif hk] at hs
    have e0 : pieceToks (Branches.elif (t!"ELIF " ++ s) key body more).pieces ++ ts =
        tagTok (t!"ELIF " ++ s) :: (pieceToks body.pieces ++ (pieceToks more.pieces ++ ts)) := by
      simp [Branches.pieces, pieceToks, pieceTok]
    rw [e0, Branches.eval]
    cases hv : look p.dict key with
    | error e =>
      rw [hv] at hs
      exact run_error hs _
    | ok v =>
      rw [hv] at hs
      rw [run_cons hs]
      simp only [bind, Except.bind, isTrue_eq]
      by_cases hb : v.truthy
      · rw [if_pos hb, if_pos hb, prog_eval body h2 p (.active :: sc) p.blank (fun h => h)]
        cases hq : body.eval p p.blank with
        | error e => rfl
        | ok q =>
          simp only [goOn]
          rw [branches_leave more h3]
      · rw [if_neg hb, if_neg hb, (prog_skip body h2 p .inactive (by simp) (.active :: sc) p.blank (fun h => h) _).2,
          branches_eval more h3]
end

/-! ### What the engine accepts -/

/-- The pieces `ps` end the given number of blocks and what follows them. -/
def Parsed : Nat → List Piece → Prop
  | 0, ps => ∃ T : Prog, T.Good ∧ T.pieces = ps
  | n + 1, ps => ∃ (body : Prog) (more : Branches) (qs : List Piece), body.Good ∧ more.Good ∧ ps = body.pieces ++ (more.pieces ++ qs) ∧ Parsed n qs

theorem Parsed.before {n : Nat} {ps : List Piece} (h : Parsed n ps) (x : Piece) (f : Prog → Prog) (hf : ∀ T, T.Good → (f T).Good)
    (hp : ∀ T, (f T).pieces = x :: T.pieces) : Parsed n (x :: ps) := by
  cases n with
  | zero => obtain ⟨T, h1, rfl⟩ := h; exact ⟨f T, hf T h1, hp T⟩
  | succ n =>
    obtain ⟨body, more, qs, h1, h2, rfl, h3⟩ := h
    exact ⟨f body, more, qs, hf _ h1, h2, by rw [hp]; rfl, h3⟩

theorem Parsed.cond {n : Nat} {ps : List Piece} (h : Parsed (n + 1) ps) {s key : Txt} (hk : OneWord s key) : Parsed n (.tag (t!"IF " ++ s) :: ps) := by
  obtain ⟨body, more, qs, h1, h2, rfl, h3⟩ := h
  cases n with
  | zero =>
    obtain ⟨T, h4, rfl⟩ := h3
    exact ⟨.cond (t!"IF " ++ s) key body more T, ⟨⟨s, rfl, hk⟩, h1, h2, h4⟩, rfl⟩
  | succ n =>
    obtain ⟨body', more', qs', h4, h5, rfl, h6⟩ := h3
    exact ⟨.cond (t!"IF " ++ s) key body more body', more', qs', ⟨⟨s, rfl, hk⟩, h1, h2, h4⟩, h5, by simp [Prog.pieces], h6⟩

theorem step_scope_pass {p q : Proc} {i j : Bool} {t : Token} (h : p.step i t = .ok (q, j))
    (ht : (∃ s, t = .text s) ∨ t = .newline ∨ ∃ m, metaTok m t) : q.scope = p.scope := by
  have hadd : ∀ (p : Proc) s, (p.addText s).scope = p.scope := by
    intro p s; unfold Proc.addText; simp only; split <;> rfl
  have haddL : ∀ (p : Proc) ls, (p.addLines ls).scope = p.scope := by
    intro p ls; unfold Proc.addLines
    split
    · rfl
    · simp only; split
      · rfl
      · rw [hadd]
  have hdone : p.top = .done → ((∃ s, t = .text s) ∨ ∃ m, metaTok m t) → q.scope = p.scope := by
    intro hd _
    rcases ht with ⟨s, rfl⟩ | rfl | ⟨m, hm⟩
    · simp [Proc.step, hd] at h; rw [← h.1]
    · rename_i hh; rcases hh with ⟨_, h'⟩ | ⟨m, hm⟩
      · cases h'
      · cases m with
        | malformed => obtain ⟨_, h', _⟩ := hm; cases h'
        | _ => cases hm
    · cases m with
      | malformed => obtain ⟨_, rfl, _⟩ := hm; simp [Proc.step, hd] at h; rw [← h.1]
      | _ => cases hm; simp [Proc.step, hd] at h; rw [← h.1]
  have hinact : p.top = .inactive → ((∃ s, t = .text s) ∨ ∃ m, metaTok m t) → q.scope = p.scope := by
    intro hd _
    rcases ht with ⟨s, rfl⟩ | rfl | ⟨m, hm⟩
    · simp [Proc.step, hd] at h; rw [← h.1]
    · rename_i hh; rcases hh with ⟨_, h'⟩ | ⟨m, hm⟩
      · cases h'
      · cases m with
        | malformed => obtain ⟨_, h', _⟩ := hm; cases h'
        | _ => cases hm
    · cases m with
      | malformed => obtain ⟨_, rfl, _⟩ := hm; simp [Proc.step, hd] at h; rw [← h.1]
      | _ => cases hm; simp [Proc.step, hd] at h; rw [← h.1]
  rcases ht with ⟨s, rfl⟩ | rfl | ⟨m, hm⟩
  · cases hp : p.top with
    | done => exact hdone hp (.inl ⟨s, rfl⟩)
    | inactive => exact hinact hp (.inl ⟨s, rfl⟩)
    | active => simp [Proc.step, hp] at h; rw [← h.1, hadd]
  · simp only [Proc.step] at h
    cases i
    · simp [Proc.handleNewline] at h
      rw [← h.1]; split <;> rfl
    · simp at h
      rw [← h.1]; split <;> rfl
  · cases hp : p.top with
    | done => exact hdone hp (.inr ⟨m, hm⟩)
    | inactive => exact hinact hp (.inr ⟨m, hm⟩)
    | active =>
      cases m with
      | value key =>
        cases hm
        simp only [Proc.step, hp, Proc.handleExpand, bind, Except.bind] at h
        cases hv : p.expandKey key with
        | error e => rw [hv] at h; simp at h
        | ok v =>
          rw [hv] at h
          cases v with
          | none => simp at h; rw [← h.1]
          | str s => by_cases hs : s = [] <;> simp [hs] at h <;> rw [← h.1]; exact hadd _ _
          | list ls => by_cases hs : ls = [] <;> simp [hs] at h <;> rw [← h.1]; exact haddL _ _
          | int n => simp at h; rw [← h.1]; exact hadd _ _
          | bool b => simp at h; rw [← h.1]; exact hadd _ _
      | assign key v =>
        cases hm
        simp only [Proc.step, hp, Proc.handleSet, bind, Except.bind] at h
        cases hb : breakOn ['='] (key ++ '=' :: v) with
        | none => rw [hb] at h; simp at h
        | some r =>
          obtain ⟨a, b⟩ := r
          rw [hb] at h
          by_cases ha : a = [] <;> simp [ha] at h; rw [← h.1]
      | malformed =>
        obtain ⟨s, rfl, _⟩ := hm
        simp only [Proc.step, hp, Proc.handleSet, bind, Except.bind] at h
        cases hb : breakOn ['='] s with
        | none => rw [hb] at h; simp at h
        | some r =>
          obtain ⟨a, b⟩ := r
          rw [hb] at h
          by_cases ha : a = [] <;> simp [ha] at h; rw [← h.1]
      | mark => cases hm; simp [Proc.step, hp] at h; rw [← h.1]
      | tab =>
        cases hm
        simp only [Proc.step, hp] at h
        cases ha : p.alignments with
        | nil => rw [ha] at h; simp at h
        | cons x xs => rw [ha] at h; simp at h; rw [← h.1]
      | unmark =>
        cases hm
        simp only [Proc.step, hp] at h
        cases ha : p.alignments with
        | nil => rw [ha] at h; simp at h
        | cons x xs => rw [ha] at h; simp at h; rw [← h.1]

theorem step_scope_if {p q : Proc} {i j : Bool} {key : Txt} (h : p.step i (.ifTok key) = .ok (q, j)) : ∃ x, q.scope = x :: p.scope := by
  simp only [Proc.step, Proc.handleIf, bind, Except.bind] at h
  by_cases ht : p.top = .active
  · cases hv : p.expandKey key with
    | error e => simp [ht, hv] at h
    | ok v => by_cases hb : v.truthy <;> simp [ht, hv, hb] at h <;> rw [← h.1] <;> exact ⟨_, rfl⟩
  · simp [ht] at h; rw [← h.1]; exact ⟨_, rfl⟩

theorem step_scope_endif {p q : Proc} {i j : Bool} (h : p.step i .endif = .ok (q, j)) : p.scope.length ≠ 1 ∧ q.scope = p.scope.tail := by
  simp only [Proc.step, Proc.handleEndif, bind, Except.bind] at h
  by_cases hl : p.scope.length = 1
  · simp [hl] at h
  · simp [hl] at h; rw [← h.1]; exact ⟨hl, rfl⟩

theorem step_scope_alt {p q : Proc} {i j : Bool} {t : Token} (ht : t = .elseTok ∨ ∃ key, t = .elifTok key) (h : p.step i t = .ok (q, j)) :
    (p.scope.length ≠ 1 ∨ p.top = .done) ∧ (q.scope = p.scope ∨ ∃ x, q.scope = x :: p.scope.tail) := by
  cases hp : p.top with
  | done =>
    rcases ht with rfl | ⟨key, rfl⟩ <;> simp [Proc.step, hp] at h <;> rw [← h.1] <;> exact ⟨.inr rfl, .inl rfl⟩
  | active =>
    by_cases hl : p.scope.length = 1
    · rcases ht with rfl | ⟨key, rfl⟩ <;> simp [Proc.step, Proc.handleElse, Proc.handleElif, hp, hl, bind, Except.bind] at h
    · rcases ht with rfl | ⟨key, rfl⟩ <;> simp [Proc.step, Proc.handleElse, Proc.handleElif, hp, hl, bind, Except.bind] at h <;> rw [← h.1] <;>
        exact ⟨.inl hl, .inr ⟨_, rfl⟩⟩
  | inactive =>
    by_cases hl : p.scope.length = 1
    · rcases ht with rfl | ⟨key, rfl⟩ <;> simp [Proc.step, Proc.handleElse, Proc.handleElif, hp, hl, bind, Except.bind] at h
    · rcases ht with rfl | ⟨key, rfl⟩
      · simp [Proc.step, Proc.handleElse, hp, hl, bind, Except.bind] at h
        rw [← h.1]; exact ⟨.inl hl, .inr ⟨_, rfl⟩⟩
      · simp only [Proc.step, Proc.handleElif, hp, hl, bind, Except.bind] at h
        cases hv : p.expandKey key with
        | error e => simp [hv] at h
        | ok v =>
          by_cases hb : v.truthy <;> simp [hv, hb] at h <;> rw [← h.1]
          · exact ⟨.inl hl, .inr ⟨_, rfl⟩⟩
          · exact ⟨.inl hl, .inl rfl⟩

theorem accepted (ps : List Piece) : ∀ (p q : Proc) (i : Bool) (xs : List Scope), p.scope = xs ++ [.active] → p.run i (pieceToks ps) = .ok q →
    q.scope.length = 1 → Parsed xs.length ps := by
  induction ps with
  | nil =>
    intro p q i xs hs h hq
    have : p = q := by simpa [pieceToks, Proc.run] using h
    subst this
    rw [hs] at hq
    have : xs = [] := by simpa using hq
    subst this
    exact ⟨.done, trivial, rfl⟩
  | cons x ps ih =>
    intro p q i xs hs h hq
    have hrun : ∃ p' j, p.step i (pieceTok x) = .ok (p', j) ∧ p'.run j (pieceToks ps) = .ok q := by
      cases e : p.step i (pieceTok x) with
      | error e' =>
        have := run_error e (pieceToks ps)
        rw [show pieceToks (x :: ps) = pieceTok x :: pieceToks ps from rfl, this] at h
        cases h
      | ok r =>
        obtain ⟨p', j⟩ := r
        refine ⟨p', j, rfl, ?_⟩
        rw [← run_cons e]; exact h
    obtain ⟨p', j, hstep, hrest⟩ := hrun
    cases x with
    | text s =>
      have := ih p' q j xs (by rw [step_scope_pass hstep (.inl ⟨s, rfl⟩), hs]) hrest hq
      exact this.before _ (.text s) (fun T h => h) (fun T => rfl)
    | newline =>
      have := ih p' q j xs (by rw [step_scope_pass hstep (.inr (.inl rfl)), hs]) hrest hq
      exact this.before _ .newline (fun T h => h) (fun T => rfl)
    | tag inner =>
      have hstep : p.step i (tagTok inner) = .ok (p', j) := hstep
      rcases tag_cases inner with ⟨m, hm⟩ | ⟨s, key, rfl, hk⟩ | ⟨s, key, rfl, hk⟩ | he | he | he
      · have := ih p' q j xs (by rw [step_scope_pass hstep (.inr (.inr ⟨m, means_tok hm⟩)), hs]) hrest hq
        exact this.before _ (.tag inner m) (fun T h => ⟨hm, h⟩) (fun T => rfl)
      · rw [tagTok_if hk] at hstep
        obtain ⟨y, hy⟩ := step_scope_if hstep
        have := ih p' q j (y :: xs) (by rw [hy, hs]; rfl) hrest hq
        exact this.cond hk
      · rw [tagTok_elif hk] at hstep
        obtain ⟨h1, h2⟩ := step_scope_alt (.inr ⟨key, rfl⟩) hstep
        cases xs with
        | nil =>
          rcases h1 with h1 | h1
          · rw [hs] at h1; exact absurd rfl h1
          · simp [Proc.top, hs] at h1
        | cons x xs =>
          have : ∃ y, p'.scope = (y :: xs) ++ [.active] := by
            rcases h2 with h2 | ⟨y, h2⟩
            · exact ⟨x, by rw [h2, hs]⟩
            · exact ⟨y, by rw [h2, hs]; rfl⟩
          obtain ⟨y, hy⟩ := this
          obtain ⟨body, more, qs, g1, g2, rfl, g3⟩ := ih p' q j (y :: xs) hy hrest hq
          exact ⟨.done, .elif (t!"ELIF " ++ s) key body more, qs, trivial, ⟨⟨s, rfl, hk⟩, g1, g2⟩, by simp [Prog.pieces, Branches.pieces], g3⟩
      · rw [tagTok_else he] at hstep
        obtain ⟨h1, h2⟩ := step_scope_alt (.inl rfl) hstep
        cases xs with
        | nil =>
          rcases h1 with h1 | h1
          · rw [hs] at h1; exact absurd rfl h1
          · simp [Proc.top, hs] at h1
        | cons x xs =>
          have : ∃ y, p'.scope = (y :: xs) ++ [.active] := by
            rcases h2 with h2 | ⟨y, h2⟩
            · exact ⟨x, by rw [h2, hs]⟩
            · exact ⟨y, by rw [h2, hs]; rfl⟩
          obtain ⟨y, hy⟩ := this
          obtain ⟨body, more, qs, g1, g2, rfl, g3⟩ := ih p' q j (y :: xs) hy hrest hq
          exact ⟨.done, .els inner body more, qs, trivial, ⟨he, g1, g2⟩, by simp [Prog.pieces, Branches.pieces], g3⟩
      · rw [tagTok_endif he] at hstep
        obtain ⟨h1, h2⟩ := step_scope_endif hstep
        cases xs with
        | nil => rw [hs] at h1; exact absurd rfl h1
        | cons x xs =>
          have := ih p' q j xs (by rw [h2, hs]; rfl) hrest hq
          exact ⟨.done, .endif inner, ps, trivial, he, by simp [Prog.pieces, Branches.pieces], this⟩
      · rw [he] at hstep
        simp [Proc.step] at hstep

end Ystring
