import Verif.Spec.Cpp
import Verif.Model.Headers
import Verif.Props.Codegen
/-
Lemmas for C93: printed numbers are read back, rows of numbers, lines of the database.
-/
namespace Ystring
open Spec Gen

/-! ### Numbers -/

theorem hexDigitOf_hexDigit : ∀ d : Fin 16, hexDigitOf (hexDigit d) = some d.val := by decide

theorem hexDigit_alnum : ∀ d : Fin 16, (hexDigit d).isAlphanum = true := by decide

theorem hexFrom_append (n : Nat) (a b : Txt) : hexFrom n (a ++ b) = (hexFrom n a).bind (fun m => hexFrom m b) := by
  induction a generalizing n with
  | nil => rfl
  | cons c cs ih =>
    simp only [List.cons_append, hexFrom]
    cases hexDigitOf c with
    | none => rfl
    | some d => exact ih _

theorem hexFrom_hexRev (fuel n : Nat) (h : n < fuel) : hexFrom 0 (hexRev fuel n).reverse = some n := by
  induction fuel generalizing n with
  | zero => omega
  | succ fuel ih =>
    have hd := hexDigitOf_hexDigit ⟨n % 16, by omega⟩
    simp only at hd
    rw [hexRev, List.reverse_cons, hexFrom_append]
    split
    · rename_i h16
      simp only [List.reverse_nil, hexFrom, Option.bind_some, hd]
      congr 1; omega
    · rw [ih (n / 16) (by omega)]
      simp only [Option.bind_some, hexFrom, hd]
      congr 1; omega

theorem hexRev_mem {fuel n : Nat} {c : Char} (h : c ∈ hexRev fuel n) : ∃ d : Fin 16, c = hexDigit d := by
  induction fuel generalizing n with
  | zero => simp [hexRev] at h
  | succ fuel ih =>
    rw [hexRev, List.mem_cons] at h
    rcases h with rfl | h
    · exact ⟨⟨n % 16, by omega⟩, rfl⟩
    · split at h
      · simp at h
      · exact ih h

theorem hexText_mem {w n : Nat} {c : Char} (h : c ∈ hexText w n) : ∃ d : Fin 16, c = hexDigit d := by
  unfold hexText at h
  rw [List.mem_append, List.mem_reverse] at h
  rcases h with h | h
  · exact ⟨0, (List.mem_replicate.mp h).2⟩
  · exact hexRev_mem h

theorem hexText_ne (w n : Nat) : hexText w n ≠ [] := by
  unfold hexText hexRev; simp

theorem hexFrom_zeros (k : Nat) (s : Txt) : hexFrom 0 (List.replicate k '0' ++ s) = hexFrom 0 s := by
  induction k with
  | zero => rfl
  | succ k ih =>
    have h0 : hexDigitOf '0' = some 0 := by decide
    rw [List.replicate_succ, List.cons_append, hexFrom, h0]
    exact ih

theorem hexValue_hexText (w n : Nat) : hexValue (hexText w n) = some n := by
  unfold hexValue
  rw [if_neg (hexText_ne w n)]
  unfold hexText
  rw [hexFrom_zeros, hexFrom_hexRev _ _ (by omega)]

theorem wordTok_hexLit (w n : Nat) : wordTok (hexLit w n) = .num n := by
  unfold hexLit wordTok
  simp only [hexValue_hexText]

theorem hexLit_alnum {w n : Nat} {c : Char} (h : c ∈ hexLit w n) : c.isAlphanum = true := by
  unfold hexLit at h
  rw [List.mem_cons, List.mem_cons] at h
  rcases h with rfl | rfl | h
  · decide
  · decide
  · obtain ⟨d, rfl⟩ := hexText_mem h; exact hexDigit_alnum d

/-! ### Tokens -/

theorem lexFrom_word {a : Txt} (h : ∀ c ∈ a, c.isAlphanum = true) (w s : Txt) : lexFrom w (a ++ s) = lexFrom (w ++ a) s := by
  induction a generalizing w with
  | nil => simp
  | cons c cs ih =>
    rw [List.cons_append, lexFrom, if_pos (by simp [h c (by simp)]), ih (fun d hd => h d (by simp [hd]))]
    simp

/-- `s` does not begin with a letter, digit or underscore. -/
def Ends (s : Txt) : Prop := ∀ c, s.head? = some c → (c.isAlphanum || c = '_') = false

theorem lexFrom_ends {s : Txt} (h : Ends s) (w : Txt) : lexFrom w s = flushTok w ++ lexFrom [] s := by
  cases s with
  | nil => simp [lexFrom, flushTok]
  | cons c cs =>
    have hc := h c rfl
    have e : ∀ w, lexFrom w (c :: cs) = flushTok w ++
        (if c = ' ' || c = '\t' then lexFrom [] cs else if c = '/' && cs.head? = some '/' then [] else .punct c :: lexFrom [] cs) := by
      intro w
      rw [lexFrom, if_neg (by simp only [hc]; decide)]
      split
      · rfl
      · split <;> simp
    rw [e w, e []]
    rfl

theorem lexFrom_lit {s : Txt} (h : Ends s) (w n : Nat) : lexFrom [] (hexLit w n ++ s) = .num n :: lexFrom [] s := by
  rw [lexFrom_word (fun c hc => hexLit_alnum hc), lexFrom_ends h, List.nil_append, flushTok, if_neg (by simp [hexLit]), wordTok_hexLit]
  rfl

theorem lexFrom_punct {c : Char} (h1 : (c.isAlphanum || c = '_') = false) (h2 : (c = ' ' || c = '\t') = false) (h3 : c ≠ '/') (s : Txt) :
    lexFrom [] (c :: s) = .punct c :: lexFrom [] s := by
  rw [lexFrom, if_neg (by simp [h1]), if_neg (by simp [h2]), if_neg (by simp [h3])]; rfl

theorem lexFrom_space (s : Txt) : lexFrom [] (' ' :: s) = lexFrom [] s := by
  rw [lexFrom, if_neg (by decide), if_pos (by decide)]; rfl

theorem lexFrom_comma (s : Txt) : lexFrom [] (',' :: s) = .punct ',' :: lexFrom [] s := lexFrom_punct (by decide) (by decide) (by decide) s
theorem lexFrom_open (s : Txt) : lexFrom [] ('{' :: s) = .punct '{' :: lexFrom [] s := lexFrom_punct (by decide) (by decide) (by decide) s
theorem lexFrom_close (s : Txt) : lexFrom [] ('}' :: s) = .punct '}' :: lexFrom [] s := lexFrom_punct (by decide) (by decide) (by decide) s

theorem ends_cons {c : Char} (h : (c.isAlphanum || c = '_') = false) (s : Txt) : Ends (c :: s) := by
  intro d hd; rw [List.head?_cons, Option.some.injEq] at hd; rw [← hd]; exact h

theorem ends_nil : Ends [] := by intro c h; simp at h

/-- Number tokens. -/
abbrev nums (vs : List Nat) : List (List CTok) := vs.map (fun n => [.num n])

theorem nums_append (us vs : List Nat) : nums (us ++ vs) = nums us ++ nums vs := List.map_append

theorem lex_row {s : Txt} (h : Ends s) (w : Nat) (vs : List Nat) : lexFrom [] (rowText w vs ++ s) = commas (nums vs) ++ lexFrom [] s := by
  induction vs with
  | nil => rfl
  | cons v vs ih =>
    cases vs with
    | nil =>
      simp only [rowText, List.map_cons, List.map_nil, joinTxt, commas]
      exact lexFrom_lit h w v
    | cons u us =>
      simp only [rowText, List.map_cons, joinTxt, commas, List.append_assoc, List.cons_append, List.nil_append] at ih ⊢
      rw [lexFrom_lit (ends_cons (by decide) _), lexFrom_comma, lexFrom_space, ih]

theorem lex_mapping (m : Nat × Nat) (s : Txt) :
    lexFrom [] (mappingText m ++ s) = (Init.struct [m.1, m.2]).toks ++ .punct ',' :: lexFrom [] s := by
  simp only [mappingText, List.append_assoc, List.cons_append, List.nil_append]
  rw [lexFrom_open, lexFrom_lit (ends_cons (by decide) _), lexFrom_comma, lexFrom_space, lexFrom_lit (ends_cons (by decide) _),
    lexFrom_close, lexFrom_comma]
  rfl

/-- The elements of a row of COMPACT_..._CASE. -/
def compactItem (r : CompactRow) : Init := .struct [r.1, r.2.1, r.2.2.1, r.2.2.2]

theorem lex_compact (d : Nat × Int × Nat × Nat) (hd : -2 ^ 32 ≤ d.2.1) (s : Txt) :
    lexFrom [] (compactText d ++ s) = (compactItem (compactRow d)).toks ++ .punct ',' :: lexFrom [] s := by
  have h : ∃ n : Nat, hexLitInt 8 (if d.2.1 < 0 then 2 ^ 32 + d.2.1 else d.2.1) = hexLit 8 n ∧ (compactRow d).2.1 = n := by
    refine ⟨(if d.2.1 < 0 then 2 ^ 32 + d.2.1 else d.2.1).toNat, ?_, ?_⟩
    · unfold hexLitInt hexInt hexLit
      rw [if_neg]
      split <;> omega
    · unfold compactRow; split <;> rfl
  obtain ⟨n, h1, h2⟩ := h
  have h3 : (compactRow d).1 = d.1 ∧ (compactRow d).2.2 = d.2.2 := by unfold compactRow; split <;> exact ⟨rfl, rfl⟩
  simp only [compactText, List.append_assoc, List.cons_append, List.nil_append, h1]
  rw [lexFrom_open, lexFrom_lit (ends_cons (by decide) _), lexFrom_comma, lexFrom_space, lexFrom_lit (ends_cons (by decide) _),
    lexFrom_comma, lexFrom_space, lexFrom_lit (ends_cons (by decide) _), lexFrom_comma, lexFrom_space, lexFrom_lit (ends_cons (by decide) _),
    lexFrom_close, lexFrom_comma]
  simp only [compactItem, h2, h3.1, h3.2]
  rfl

/-! ### Rows -/

/-- Elements that are all followed by a comma. -/
def each (xs : List (List CTok)) : List CTok := xs.flatMap (fun x => x ++ [.punct ','])

theorem each_append (xs ys : List (List CTok)) : each (xs ++ ys) = each xs ++ each ys := List.flatMap_append

theorem commas_comma {xs : List (List CTok)} (h : xs ≠ []) : commas xs ++ [.punct ','] = each xs := by
  induction xs with
  | nil => exact absurd rfl h
  | cons x xs ih =>
    cases xs with
    | nil => simp [commas, each]
    | cons y ys =>
      have := ih (by simp)
      simp only [commas, each, List.flatMap_cons, List.append_assoc, List.cons_append, List.nil_append] at this ⊢
      rw [this]

theorem commas_append (xs : List (List CTok)) {ys : List (List CTok)} (h : ys ≠ []) : commas (xs ++ ys) = each xs ++ commas ys := by
  induction xs with
  | nil => rfl
  | cons x xs ih =>
    have : xs ++ ys ≠ [] := by simp [h]
    cases hxy : xs ++ ys with
    | nil => exact absurd hxy this
    | cons z zs =>
      rw [List.cons_append, hxy, commas, ← hxy, ih]
      · simp [each]
      · simp

theorem each_commas (xs : List (List CTok)) : each xs = commas xs ++ (if !xs.isEmpty then [.punct ','] else []) := by
  cases xs with
  | nil => rfl
  | cons x xs => rw [← commas_comma (by simp)]; rfl

theorem lex_row_comma (w : Nat) {vs : List Nat} (h : vs ≠ []) : lexFrom [] (rowText w vs ++ [',']) = each (nums vs) := by
  rw [lex_row (ends_cons (by decide) _), lexFrom_comma, ← commas_comma (by simp [h])]; rfl

theorem lex_row_last (w : Nat) (vs : List Nat) : lexFrom [] (rowText w vs) = commas (nums vs) := by
  have := lex_row ends_nil w vs
  rw [List.append_nil] at this
  rw [this]; simp [lexFrom, flushTok]

theorem lex_full_rows (w n : Nat) (hn : 0 < n) (vs : List Nat) (k : Nat) (hk : n * k ≤ vs.length) :
    ((List.range k).map (fun i => rowText w ((vs.drop (n * i)).take n) ++ [','])).flatMap (lexFrom []) = each (nums (vs.take (n * k))) := by
  induction k with
  | zero => simp [each]
  | succ k ih =>
    have hk' : n * k + n ≤ vs.length := by rw [Nat.mul_succ] at hk; exact hk
    rw [List.range_succ, List.map_append, List.flatMap_append, ih (by omega), List.map_singleton, List.flatMap_singleton, lex_row_comma]
    · rw [Nat.mul_succ, List.take_add, nums_append, each_append]
    · intro h
      have := congrArg List.length h
      simp at this
      omega

theorem lex_tableRows (w n : Nat) (hn : 0 < n) (vs : List Nat) : (tableRows w n vs).flatMap (lexFrom []) = commas (nums vs) := by
  unfold tableRows
  rw [List.flatMap_append, List.flatMap_singleton, lex_row_last]
  by_cases h0 : vs = []
  · subst h0
    have h2 : (0 + n - 1) / n = 0 := Nat.div_eq_of_lt (by omega)
    simp only [List.length_nil, Nat.zero_mod, if_true, Nat.zero_sub, h2]
    rfl
  · have hl := List.length_pos_iff.mpr h0
    generalize hr : (if vs.length % n = 0 then n else vs.length % n) = r
    have hdm := Nat.div_add_mod vs.length n
    have hq : ∃ k, vs.length = n * k + r ∧ 0 < r ∧ r ≤ n := by
      split at hr
      · rename_i hm
        rw [hm, Nat.add_zero] at hdm
        refine ⟨vs.length / n - 1, ?_, by omega, by omega⟩
        rw [Nat.mul_sub, Nat.mul_one]
        have : n ≤ vs.length := by
          rcases Nat.lt_or_ge vs.length n with h | h
          · rw [Nat.mod_eq_of_lt h] at hm; omega
          · exact h
        omega
      · refine ⟨vs.length / n, by omega, by omega, ?_⟩
        have := Nat.mod_lt vs.length hn
        omega
    obtain ⟨k, h1, h2, h3⟩ := hq
    have h4 : (vs.length - r + n - 1) / n = k := by
      have : vs.length - r + n - 1 = n - 1 + n * k := by omega
      rw [this, Nat.add_mul_div_left _ _ hn, Nat.div_eq_of_lt (by omega)]; omega
    simp only [h4]
    have h5 : vs.length - r = n * k := by omega
    rw [lex_full_rows w n hn vs k (by omega), h5, ← commas_append, ← List.map_append, List.take_append_drop]
    intro h
    have := congrArg List.length h
    simp at this
    omega

theorem asciiFold (ls : List (Nat × Nat)) (acc : List Txt × List Txt) (vs us : List Nat) (h1 : acc.1.flatMap (lexFrom []) = each (nums vs))
    (h2 : acc.2 = us.map (hexLit 2)) (h3 : us ≠ [] ∨ vs = []) :
    let r := ls.foldl asciiStep acc
    (r.1 ++ [joinTxt (t!", ") r.2]).flatMap (lexFrom []) = commas (nums (vs ++ us ++ ls.map (fun l => l.2 - 1))) := by
  induction ls generalizing acc vs us with
  | nil =>
    simp only [List.foldl_nil, List.map_nil, List.append_nil]
    rw [List.flatMap_append, List.flatMap_singleton, h1, h2, nums_append]
    show _ ++ lexFrom [] (rowText 2 us) = _
    rw [lex_row_last]
    rcases h3 with h3 | h3
    · rw [commas_append _ (by simp [h3])]
    · subst h3; rfl
  | cons l ls ih =>
    simp only [List.foldl_cons]
    by_cases h8 : acc.2.length = 8
    · have hu : us ≠ [] := by
        intro h; rw [h2, h] at h8; simp at h8
      have := ih (asciiStep acc l) (vs ++ us) [l.2 - 1] (by
          simp only [asciiStep, if_pos h8, List.flatMap_append, List.flatMap_singleton, h1]
          rw [h2]
          show _ ++ lexFrom [] (rowText 2 us ++ [',']) = _
          rw [lex_row_comma 2 hu, nums_append, each_append])
        (by simp [asciiStep, if_pos h8]) (Or.inl (by simp))
      rw [this]; simp
    · have := ih (asciiStep acc l) vs (us ++ [l.2 - 1]) (by simp only [asciiStep, if_neg h8, h1])
        (by simp only [asciiStep, if_neg h8]; rw [h2]; simp) (Or.inl (by simp))
      rw [this]; simp

theorem lex_asciiRows (ls : List (Nat × Nat)) : (asciiRows ls).flatMap (lexFrom []) = commas (nums (asciiTable ls)) := by
  have := asciiFold (ls.takeWhile (fun l => l.1 < 128)) ([], []) [] [] rfl rfl (Or.inr rfl)
  simp only [List.nil_append] at this
  exact this

/-! ### Lines -/

/-- A row of a table: it has no white space at the ends and does not look like a directive. -/
structure IsRow (l : Txt) : Prop where
  first : ∃ c cs, l = c :: cs ∧ isSpace c = false ∧ c ≠ '#'
  last : ∃ c cs, l = cs ++ [c] ∧ isSpace c = false
  newline : '\n' ∉ l

theorem rstrip_last {s : Txt} {c : Char} (h : isSpace c = false) : rstrip (s ++ [c]) = s ++ [c] := by
  unfold rstrip; simp [h]

theorem rstrip_row {l : Txt} (h : IsRow l) (pre : Txt) : rstrip (pre ++ l) = pre ++ l := by
  obtain ⟨c, cs, rfl, hc⟩ := h.last
  rw [← List.append_assoc, rstrip_last hc]

theorem rstrip_nil : rstrip [] = [] := rfl

/-- The margin of the tables. -/
abbrev MARGIN : Txt := t!"        "

theorem lexLine_margin {l : Txt} (h : IsRow l) : lexLine (MARGIN ++ l) = lexFrom [] l := by
  obtain ⟨c, cs, rfl, hc, h2⟩ := h.first
  have hd : ((MARGIN ++ c :: cs).dropWhile (fun c => c = ' ' || c = '\t')).head? = some c := by
    have h3 : c ≠ ' ' := by rintro rfl; exact absurd hc (by decide)
    have h4 : c ≠ '\t' := by rintro rfl; exact absurd hc (by decide)
    simp [h3, h4]
  unfold lexLine
  rw [hd, if_neg (by simp [h2])]
  simp only [List.cons_append, List.nil_append, lexFrom_space]

theorem margin_row {l : Txt} (h : IsRow l) : margin (MARGIN ++ l) MARGIN.length = MARGIN := by
  obtain ⟨c, cs, rfl, hc, h2⟩ := h.first
  refine (C91_aligned MARGIN (c :: cs) ⟨c, cs, rfl, ?_, ?_⟩).2.2 (by decide)
  · rintro rfl; exact absurd hc (by decide)
  · rintro rfl; exact absurd hc (by decide)

/-- The lines for the rows of a table. -/
theorem expand_rows {rows : List Txt} (h : rows = [[]] ∨ ∀ l ∈ rows, IsRow l) :
    lexLines (expandLine 0 MARGIN rows []).1 = rows.flatMap (lexFrom []) ∧ (∀ l ∈ (expandLine 0 MARGIN rows []).1, '\n' ∉ l) := by
  rcases h with rfl | h
  · decide
  · match rows with
    | [] => decide
    | [l] =>
      have hl := h l (by simp)
      simp only [expandLine, List.append_nil, cutBlanks_eq, rstrip_row hl, lexLines, List.flatMap_singleton, lexLine_margin hl, List.mem_singleton, forall_eq,
        true_and]
      simp [hl.newline]
    | l :: x :: xs =>
      have hl := h l (by simp)
      have hm : margin (MARGIN ++ l) (0 + MARGIN.length) = MARGIN := by rw [Nat.zero_add]; exact margin_row hl
      obtain ⟨ys, y, e⟩ : ∃ ys y, x :: xs = ys ++ [y] := ⟨(x :: xs).dropLast, (x :: xs).getLast (by simp), (List.dropLast_concat_getLast (by simp)).symm⟩
      have hy : IsRow y := h y (by rw [e]; simp)
      have hys : ∀ z ∈ ys, IsRow z := fun z hz => h z (by rw [e]; simp [hz])
      simp only [expandLine, hm]
      rw [e]
      simp only [List.dropLast_concat, List.getLastD_concat, List.append_nil, cutBlanks_eq, rstrip_row hy]
      have hmap : ys.map (fun l => if l = [] then [] else MARGIN ++ l) = ys.map (MARGIN ++ ·) := by
        refine List.map_congr_left fun z hz => ?_
        obtain ⟨c, cs, rfl, _⟩ := (hys z hz).first
        simp
      rw [hmap]
      constructor
      · simp only [lexLines, List.flatMap_cons, List.flatMap_append, List.flatMap_nil, List.append_nil, lexLine_margin hl,
          lexLine_margin hy, List.flatMap_map]
        congr 2
        simp only [List.flatMap_def]
        congr 1
        exact List.map_congr_left fun z hz => lexLine_margin (hys z hz)
      · intro z hz
        rw [List.mem_cons, List.mem_append, List.mem_map, List.mem_singleton] at hz
        rcases hz with rfl | ⟨u, hu, rfl⟩ | rfl
        · simp [hl.newline]
        · simp [(hys u hu).newline]
        · simp [hy.newline]

theorem isSpace_alnum {c : Char} (h : c.isAlphanum = true) : isSpace c = false := isSpace_alphanum (Or.inl h)

theorem newline_alnum {c : Char} (h : c.isAlphanum = true) : c ≠ '\n' := by rintro rfl; exact absurd h (by decide)

theorem hexLit_newline (w n : Nat) : '\n' ∉ hexLit w n := fun h => newline_alnum (hexLit_alnum h) rfl

theorem rowText_newline (w : Nat) (vs : List Nat) : '\n' ∉ rowText w vs := by
  induction vs with
  | nil => simp [rowText, joinTxt]
  | cons v vs ih =>
    cases vs with
    | nil => exact hexLit_newline w v
    | cons u us =>
      simp only [rowText, List.map_cons, joinTxt, List.mem_append, not_or] at ih ⊢
      exact ⟨⟨hexLit_newline w v, by decide⟩, ih⟩

theorem hexLit_last (w n : Nat) : ∃ c cs, hexLit w n = cs ++ [c] ∧ isSpace c = false := by
  have h : hexLit w n ≠ [] := by simp [hexLit]
  refine ⟨(hexLit w n).getLast h, (hexLit w n).dropLast, (List.dropLast_concat_getLast h).symm, isSpace_alnum (hexLit_alnum (List.getLast_mem h))⟩

theorem rowText_ends (w : Nat) {vs : List Nat} (h : vs ≠ []) :
    (∃ cs, rowText w vs = '0' :: cs) ∧ (∃ c cs, rowText w vs = cs ++ [c] ∧ isSpace c = false) := by
  induction vs with
  | nil => exact absurd rfl h
  | cons v vs ih =>
    cases vs with
    | nil => exact ⟨⟨_, rfl⟩, hexLit_last w v⟩
    | cons u us =>
      obtain ⟨_, c, cs, h1, h2⟩ := ih (by simp)
      refine ⟨⟨_, rfl⟩, c, hexLit w v ++ t!", " ++ cs, ?_, h2⟩
      simp only [rowText, List.map_cons, joinTxt] at h1 ⊢
      rw [h1]; simp

theorem row_comma (w : Nat) {vs : List Nat} (h : vs ≠ []) : IsRow (rowText w vs ++ [',']) := by
  obtain ⟨⟨cs, h1⟩, _⟩ := rowText_ends w h
  exact ⟨⟨'0', cs ++ [','], by rw [h1]; rfl, by decide, by decide⟩, ⟨',', _, rfl, by decide⟩, by simp [rowText_newline]⟩

theorem row_last (w : Nat) {vs : List Nat} (h : vs ≠ []) : IsRow (rowText w vs) := by
  obtain ⟨⟨cs, h1⟩, c, ds, h2, h3⟩ := rowText_ends w h
  exact ⟨⟨'0', cs, h1, by decide, by decide⟩, ⟨c, ds, h2, h3⟩, rowText_newline w vs⟩

theorem isRow_mapping (m : Nat × Nat) : IsRow (mappingText m) := by
  refine ⟨⟨'{', _, rfl, by decide, by decide⟩, ⟨',', ['{'] ++ hexLit 6 m.1 ++ t!", " ++ hexLit 6 m.2 ++ ['}'], by simp [mappingText], by decide⟩, ?_⟩
  simp [mappingText, hexLit_newline]

theorem hexLitInt_newline (w : Nat) (n : Int) : '\n' ∉ hexLitInt w n := by
  have h : ∀ w n, '\n' ∉ hexText w n := by
    intro w n hn
    obtain ⟨d, hd⟩ := hexText_mem hn
    exact newline_alnum (hexDigit_alnum d) hd.symm
  unfold hexLitInt hexInt
  split <;> simp [h]

theorem isRow_compact (d : Nat × Int × Nat × Nat) : IsRow (compactText d) := by
  refine ⟨⟨'{', _, rfl, by decide, by decide⟩, ⟨',', ['{'] ++ hexLit 6 d.1 ++ t!", " ++
    hexLitInt 8 (if d.2.1 < 0 then 2 ^ 32 + d.2.1 else d.2.1) ++ t!", " ++ hexLit 8 d.2.2.1 ++ t!", " ++ hexLit 8 d.2.2.2 ++ ['}'], ?_, by decide⟩, ?_⟩
  · simp [compactText]
  · simp [compactText, hexLit_newline, hexLitInt_newline]

theorem tableRows_rows (w n : Nat) (hn : 0 < n) (vs : List Nat) : tableRows w n vs = [[]] ∨ ∀ l ∈ tableRows w n vs, IsRow l := by
  by_cases h0 : vs = []
  · subst h0
    left
    have h2 : (n - 1) / n = 0 := Nat.div_eq_of_lt (by omega)
    simp only [tableRows, List.length_nil, Nat.zero_mod, if_true, Nat.zero_sub, Nat.zero_add, h2]
    rfl
  · right
    have hl := List.length_pos_iff.mpr h0
    have hmod := Nat.mod_lt vs.length hn
    intro l hm
    unfold tableRows at hm
    rw [List.mem_append, List.mem_map, List.mem_singleton] at hm
    generalize hr : (if vs.length % n = 0 then n else vs.length % n) = r at hm
    have hr0 : 0 < r := by split at hr <;> omega
    rcases hm with ⟨i, hi, rfl⟩ | rfl
    · refine row_comma w ?_
      rw [List.mem_range, Nat.lt_div_iff_mul_lt hn] at hi
      intro h
      have := congrArg List.length h
      simp at this
      rw [Nat.mul_comm] at hi
      omega
    · refine row_last w ?_
      intro h
      have := congrArg List.length h
      simp at this
      omega

theorem asciiFold_rows (ls : List (Nat × Nat)) (acc : List Txt × List Txt) (us : List Nat) (h1 : ∀ l ∈ acc.1, IsRow l)
    (h2 : acc.2 = us.map (hexLit 2)) (h3 : us ≠ [] ∨ ls ≠ []) :
    let r := ls.foldl asciiStep acc
    ∀ l ∈ r.1 ++ [joinTxt (t!", ") r.2], IsRow l := by
  induction ls generalizing acc us with
  | nil =>
    intro r l hl
    have hu : us ≠ [] := by simpa using h3
    rw [List.mem_append, List.mem_singleton] at hl
    rcases hl with hl | rfl
    · exact h1 l hl
    · show IsRow (joinTxt (t!", ") acc.2)
      rw [h2]; exact row_last 2 hu
  | cons l ls ih =>
    simp only [List.foldl_cons]
    by_cases h8 : acc.2.length = 8
    · have hu : us ≠ [] := by
        intro h; rw [h2, h] at h8; simp at h8
      refine ih (asciiStep acc l) [l.2 - 1] ?_ (by simp [asciiStep, if_pos h8]) (Or.inl (by simp))
      intro z hz
      simp only [asciiStep, if_pos h8, List.mem_append, List.mem_singleton] at hz
      rcases hz with hz | rfl
      · exact h1 z hz
      · rw [h2]; exact row_comma 2 hu
    · refine ih (asciiStep acc l) (us ++ [l.2 - 1]) ?_ (by simp only [asciiStep, if_neg h8]; rw [h2]; simp) (Or.inl (by simp))
      simpa only [asciiStep, if_neg h8] using h1

theorem asciiRows_rows (ls : List (Nat × Nat)) : asciiRows ls = [[]] ∨ ∀ l ∈ asciiRows ls, IsRow l := by
  by_cases h : ls.takeWhile (fun l => l.1 < 128) = []
  · left; simp [asciiRows, h, joinTxt]
  · right; exact asciiFold_rows _ ([], []) [] (by simp) rfl (Or.inr h)

end Ystring
