import Verif.Model.Names
import Verif.Spec.Names
import Verif.Proofs.Database
/-
C94: names for generated code.
-/
namespace Ystring.Gen
open Ystring.Spec

/-- the character that the script looks at -/
def spaced (c : Char) : Char := if BAD_CPP_CHARS.contains c then ' ' else c

theorem isSpace_iff (c : Char) : isSpace c = true ↔ c.toNat ∈ [9, 10, 11, 12, 13, 28, 29, 30, 31, 32, 0x85, 0xA0, 0x1680, 0x2000, 0x2001,
    0x2002, 0x2003, 0x2004, 0x2005, 0x2006, 0x2007, 0x2008, 0x2009, 0x200A, 0x2028, 0x2029, 0x202F, 0x205F, 0x3000] := by
  simp only [isSpace, Bool.or_eq_true, Bool.and_eq_true, decide_eq_true_eq, List.mem_cons, List.not_mem_nil, or_false]
  omega

theorem bad_chars : BAD_CPP_CHARS = "'!\"#$%&/()=?+*@.:,;<>^`-_[]{}".toList := by decide +kernel

theorem spaced_iff (c : Char) : isSpace (spaced c) = true ↔ Separates c := by
  unfold spaced Separates
  rw [← bad_chars, ← isSpace_iff]
  by_cases h : c ∈ BAD_CPP_CHARS
  · rw [if_pos (by simpa using h)]
    simp [h, isSpace]
  · rw [if_neg (by simpa using h)]
    simp [h]

theorem not_separates {c : Char} (h : ¬ Separates c) : isSpace (spaced c) = false ∧ spaced c = c := by
  refine ⟨by rw [← Bool.not_eq_true, spaced_iff]; exact h, ?_⟩
  unfold spaced
  rw [if_neg]
  intro hc
  apply h
  left
  rw [← bad_chars]
  simpa using hc

theorem wordsFrom_spaces {p : Txt} (h : ∀ c ∈ p, isSpace c = true) (s : Txt) : wordsFrom [] (p ++ s) = wordsFrom [] s := by
  induction p with
  | nil => rfl
  | cons c p ih =>
    rw [List.cons_append, wordsFrom, if_pos (h c (by simp)), if_pos rfl, ih (fun d hd => h d (by simp [hd]))]

theorem wordsFrom_end {w r : Txt} (hw : w ≠ []) (h : ∀ c, r.head? = some c → isSpace c = true) :
    wordsFrom w r = w :: wordsFrom [] r := by
  cases r with
  | nil => simp [wordsFrom, hw]
  | cons c r =>
    rw [wordsFrom, if_pos (h c rfl), if_neg hw, wordsFrom, if_pos (h c rfl), if_pos rfl]

theorem map_spaced {w : Txt} (h : ∀ c ∈ w, ¬ Separates c) : w.map spaced = w := by
  induction w with
  | nil => rfl
  | cons c w ih => rw [List.map_cons, (not_separates (h c (by simp))).2, ih (fun d hd => h d (by simp [hd]))]

theorem words_spaced {s : Txt} {ws : List Txt} (h : HasWords s ws) : words (s.map spaced) = ws := by
  induction h with
  | @none s hs =>
    have := wordsFrom_spaces (p := s.map spaced) (by
      intro c hc
      obtain ⟨d, hd, rfl⟩ := List.mem_map.mp hc
      exact (spaced_iff d).mpr (hs d hd)) []
    rw [List.append_nil] at this
    unfold words
    rw [this]; rfl
  | @word p w r ws hp hw hn hr _ ih =>
    unfold words at ih ⊢
    rw [List.map_append, List.map_append, map_spaced hn, List.append_assoc, wordsFrom_spaces, wordsFrom_nospace, List.nil_append,
      wordsFrom_end hw, ih]
    · intro c hc
      cases r with
      | nil => cases hc
      | cons d r =>
        simp at hc
        subst hc
        exact (spaced_iff d).mpr (hr d rfl)
    · intro c hc
      have := not_separates (hn c hc)
      rw [this.2] at this
      exact this.1
    · intro c hc
      obtain ⟨d, hd, rfl⟩ := List.mem_map.mp hc
      exact (spaced_iff d).mpr (hp d hd)

theorem join_underscored (ws : List Txt) : joinTxt (t!"_") ws = underscored ws := by
  unfold underscored
  cases ws with
  | nil => rfl
  | cons w ws =>
    simp only
    induction ws generalizing w with
    | nil => simp [joinTxt]
    | cons v ws ih => simp [joinTxt, ih]

theorem hasWords_cons_sep {c : Char} (hc : Separates c) {s : Txt} {ws : List Txt} (h : HasWords s ws) : HasWords (c :: s) ws := by
  cases h with
  | none h => exact .none (fun d hd => (List.mem_cons.mp hd).elim (fun e => e ▸ hc) (fun hd => h d hd))
  | @word p w r ws hp hw hn hr h =>
    exact .word (p := c :: p) (fun d hd => (List.mem_cons.mp hd).elim (fun e => e ▸ hc) (fun hd => hp d hd)) hw hn hr h

/-- C94: every string has words. -/
theorem C94_words (s : Txt) : ∃ ws, HasWords s ws := by
  induction s with
  | nil => exact ⟨[], .none (by simp)⟩
  | cons c s ih =>
    obtain ⟨ws, h⟩ := ih
    by_cases hc : Separates c
    · exact ⟨ws, hasWords_cons_sep hc h⟩
    · by_cases hh : ∀ d, s.head? = some d → Separates d
      · exact ⟨[c] :: ws, .word (p := []) (w := [c]) (r := s) (by simp) (by simp) (by simpa using hc) hh h⟩
      · cases h with
        | none h =>
          exfalso; apply hh
          intro d hd
          exact h d (List.mem_of_mem_head? hd)
        | @word p w r ws hp hw hn hr h =>
          cases p with
          | cons d p =>
            exfalso; apply hh
            intro d' hd
            simp at hd
            subst hd
            exact hp d (by simp)
          | nil =>
            exact ⟨(c :: w) :: ws, .word (p := []) (w := c :: w) (r := r) (by simp) (by simp)
              (fun d hd => (List.mem_cons.mp hd).elim (fun e => e ▸ hc) (fun hd => hn d hd)) hr h⟩

/-- C94: `variable_name` is the words of the string with underscores between them. -/
theorem C94_variable_name (s : Txt) (ws : List Txt) (h : HasWords s ws) : variableName s = underscored ws := by
  unfold variableName
  rw [show translateToSpace s BAD_CPP_CHARS = s.map spaced from rfl, words_spaced h, join_underscored]

theorem underscore_separates : Separates '_' := by left; decide

/-- the words of a name are the words of the string -/
theorem words_underscored {s : Txt} {ws : List Txt} (h : HasWords s ws) : HasWords (underscored ws) ws := by
  have aux : ∀ {s : Txt} {ws : List Txt}, HasWords s ws → HasWords (ws.flatMap ('_' :: ·)) ws := by
    intro s ws h
    induction h with
    | none _ => exact .none (by simp)
    | @word p w r ws hp hw hn hr _ ih =>
      rw [List.flatMap_cons]
      refine .word (p := ['_']) (w := w) (r := ws.flatMap ('_' :: ·)) (by simpa using underscore_separates) hw hn ?_ ih
      intro c hc
      cases ws with
      | nil => cases hc
      | cons v ws => simp at hc; subst hc; exact underscore_separates
  cases h with
  | none h => exact .none (by simp [underscored])
  | @word p w r ws hp hw hn hr h =>
    refine .word (p := []) (w := w) (r := ws.flatMap ('_' :: ·)) (by simp) hw hn ?_ (aux h)
    intro c hc
    cases ws with
    | nil => cases hc
    | cons v ws => simp at hc; subst hc; exact underscore_separates

/-- C94: a name is its own name. -/
theorem C94_idempotent (s : Txt) : variableName (variableName s) = variableName s := by
  obtain ⟨ws, h⟩ := C94_words s
  rw [C94_variable_name s ws h, C94_variable_name _ ws (words_underscored h)]

/-- C94: a name is an identifier exactly if the string has a word, its words are made of letters and digits, and the first
word does not begin with a digit. -/
theorem C94_identifier (s : Txt) (ws : List Txt) (h : HasWords s ws) : IsIdentifier (variableName s) ↔
    ws ≠ [] ∧ (∀ w ∈ ws, ∀ c ∈ w, c.isAlphanum = true) ∧ (∀ w, ws.head? = some w → ∀ c, w.head? = some c → c.isDigit = false) := by
  rw [C94_variable_name s ws h]
  have hmem : ∀ (s : Txt) (ws : List Txt), HasWords s ws → ∀ w ∈ ws, w ≠ [] ∧ ∀ c ∈ w, ¬ Separates c := by
    intro s ws h
    induction h with
    | none _ => simp
    | word _ hw hn _ _ ih => exact fun w' hw' => (List.mem_cons.mp hw').elim (fun e => e ▸ ⟨hw, hn⟩) (ih w')
  replace hmem := hmem s ws h
  cases ws with
  | nil => simp [IsIdentifier, underscored]
  | cons w ws =>
    obtain ⟨hw, -⟩ := hmem w (by simp)
    unfold IsIdentifier underscored
    cases w with
    | nil => exact absurd rfl hw
    | cons a w =>
      simp only [List.cons_append, ne_eq, reduceCtorEq, not_false_eq_true, true_and, List.head?_cons, Option.some.injEq,
        forall_eq']
      constructor
      · rintro ⟨h1, h2⟩
        refine ⟨?_, h2⟩
        intro v hv c hc
        have : c ∈ a :: (w ++ ws.flatMap ('_' :: ·)) := by
          rcases List.mem_cons.mp hv with rfl | hv
          · rw [← List.cons_append]; exact List.mem_append_left _ hc
          · exact List.mem_cons_of_mem _ (List.mem_append_right _ (List.mem_flatMap.mpr ⟨v, hv, List.mem_cons_of_mem _ hc⟩))
        rcases h1 c this with h | h
        · exact h
        · subst h; exact absurd underscore_separates ((hmem v hv).2 _ hc)
      · rintro ⟨h1, h2⟩
        refine ⟨?_, h2⟩
        intro c hc
        rw [← List.cons_append] at hc
        rcases List.mem_append.mp hc with hc | hc
        · exact .inl (h1 (a :: w) (by simp) c hc)
        · obtain ⟨v, hv, hc⟩ := List.mem_flatMap.mp hc
          rcases List.mem_cons.mp hc with rfl | hc
          · exact .inr rfl
          · exact .inl (h1 v (by simp [hv]) c hc)

/-- `Char.toUpper` changes nothing but the small letters of ASCII -/
theorem separates_toUpper (c : Char) : Separates c.toUpper ↔ Separates c := by
  by_cases h : 97 ≤ c.toNat ∧ c.toNat ≤ 122
  · have : ∀ n, 97 ≤ n → n ≤ 122 → (isSpace (spaced (Char.ofNat n)) = false ∧ isSpace (spaced (Char.ofNat n).toUpper) = false) := by
      intro n h1 h2
      have : (List.range' 97 26).all (fun n => isSpace (spaced (Char.ofNat n)) == false && isSpace (spaced (Char.ofNat n).toUpper) == false) = true := by
        decide +kernel
      have := List.all_eq_true.mp this n (by rw [List.mem_range'_1]; omega)
      simpa using this
    have := this c.toNat h.1 h.2
    rw [Char.ofNat_toNat] at this
    rw [← spaced_iff, ← spaced_iff, this.1, this.2]
  · have : c.toUpper = c := by
      unfold Char.toUpper
      split
      · rename_i h'
        exfalso; apply h
        obtain ⟨h1, h2⟩ := h'
        simp only [UInt32.le_iff_toNat_le] at h1 h2
        exact ⟨h1, h2⟩
      · rfl
    rw [this]

theorem hasWords_upper {s : Txt} {ws : List Txt} (h : HasWords s ws) : HasWords (upperText s) (ws.map upperText) := by
  unfold upperText
  induction h with
  | none h => exact .none (by simpa [separates_toUpper] using h)
  | @word p w r ws hp hw hn hr _ ih =>
    rw [List.map_append, List.map_append, List.map_cons]
    refine .word (by simpa [separates_toUpper] using hp) (by simpa using hw) (by simpa [separates_toUpper] using hn) ?_ ih
    intro c hc
    cases r with
    | nil => cases hc
    | cons d r => simp at hc; subst hc; rw [separates_toUpper]; exact hr d rfl

/-- C94: `make_macro_name` is the words in capital letters, with underscores between them. -/
theorem C94_macro_name (s : Txt) (ws : List Txt) (h : HasWords s ws) :
    makeMacroName s = underscored (ws.map (·.map Char.toUpper)) :=
  C94_variable_name (upperText s) _ (hasWords_upper h)

/-- C94: both functions agree up to capital letters, and the name of a macro name is the macro name. -/
theorem C94_macro_variable (s : Txt) : makeMacroName s = (variableName s).map Char.toUpper ∧ variableName (makeMacroName s) = makeMacroName s := by
  obtain ⟨ws, h⟩ := C94_words s
  refine ⟨?_, C94_idempotent (upperText s)⟩
  rw [C94_macro_name s ws h, C94_variable_name s ws h]
  cases ws with
  | nil => rfl
  | cons w ws =>
    simp only [underscored, List.map_cons, List.map_append, List.map_flatMap, List.flatMap_map]
    rfl

/-- a string with three words, whose name is an identifier; the characters `|`, `~`, `\` and a digit at the beginning remain -/
example : HasWords (t!" char-class table!") [t!"char", t!"class", t!"table"] ∧ variableName (t!" char-class table!") = t!"char_class_table" ∧
    makeMacroName (t!" char-class table!") = t!"CHAR_CLASS_TABLE" ∧ variableName (t!"a|~b \\c") = t!"a|~b_\\c" ∧ variableName (t!"2 x") = t!"2_x" := by
  have k : ∀ cs : List Char, (cs.all fun c => isSpace (spaced c)) = true → ∀ c ∈ cs, Separates c := fun cs h c hc =>
    (spaced_iff c).mp (List.all_eq_true.mp h c hc)
  have k' : ∀ cs : List Char, (cs.all fun c => !isSpace (spaced c)) = true → ∀ c ∈ cs, ¬ Separates c := fun cs h c hc hs => by
    have := List.all_eq_true.mp h c hc
    rw [(spaced_iff c).mpr hs] at this; cases this
  refine ⟨?_, by decide +kernel, by decide +kernel, by decide +kernel, by decide +kernel⟩
  refine .word (p := [' ']) (w := t!"char") (r := t!"-class table!") (k _ (by decide +kernel)) (by simp) (k' _ (by decide +kernel)) ?_
    (.word (p := ['-']) (w := t!"class") (r := t!" table!") (k _ (by decide +kernel)) (by simp) (k' _ (by decide +kernel)) ?_
      (.word (p := [' ']) (w := t!"table") (r := t!"!") (k _ (by decide +kernel)) (by simp) (k' _ (by decide +kernel)) ?_
        (.none (k _ (by decide +kernel)))))
  all_goals
    intro c hc
    simp at hc
    subst hc
    exact (spaced_iff _).mp (by decide +kernel)

end Ystring.Gen
