import Verif.Proofs.Database
import Verif.Props.Lines
import Verif.Props.Generate
/-
C93: the headers that the table generators print for a Unicode database.
-/
namespace Ystring
open Spec Gen

/-! ### Lines and tokens -/

/-- The lines made from a template have the given tokens. -/
def Prints (T : Tmpl) (d : List (Txt × Val)) (off : Nat) (ts : List CTok) : Prop :=
  ∃ r, T.eval d off = .ok r ∧ lexLines r.1 = ts ∧ ∀ l ∈ r.1, '\n' ∉ l

theorem Prints.congr {T : Tmpl} {d : List (Txt × Val)} {off : Nat} {ts us : List CTok} (h : Prints T d off ts) (e : ts = us) : Prints T d off us := e ▸ h

theorem rstrip_mem {s : Txt} {c : Char} (h : c ∈ rstrip s) : c ∈ s := by
  unfold rstrip at h
  rw [List.mem_reverse] at h
  exact List.mem_reverse.mp ((List.dropWhile_sublist _).subset h)

theorem prints_nil (d : List (Txt × Val)) (off : Nat) : Prints .nil d off [] := ⟨_, rfl, rfl, by simp⟩

theorem prints_plain {text : Txt} (a : List CTok) {b : List CTok} {rest : Tmpl} {d : List (Txt × Val)} (ht : '\n' ∉ text) (ha : lexLine (rstrip text) = a)
    (hb : Prints rest d 0 b) (off : Nat) : Prints (.plain text rest) d off (a ++ b) := by
  obtain ⟨r, h1, h2, h3⟩ := hb
  refine ⟨(rstrip text :: r.1, r.2), ?_, ?_, ?_⟩
  · rw [Tmpl.eval, h1, cutBlanks_eq]; rfl
  · simp only [lexLines, List.flatMap_cons, ha] at h2 ⊢; rw [h2]
  · intro l hl
    rcases List.mem_cons.mp hl with rfl | hl
    · exact fun h => ht (rstrip_mem h)
    · exact h3 l hl

theorem prints_expand {pre key post : Txt} {v : Val} {off : Nat} (a : List CTok) {b : List CTok} {rest : Tmpl} {d : List (Txt × Val)} (hv : valueOf d key = .ok v)
    (ha : lexLines (expandLine off pre (block v) post).1 = a ∧ ∀ l ∈ (expandLine off pre (block v) post).1, '\n' ∉ l)
    (hb : ∀ off, Prints rest d off b) : Prints (.expand pre key post rest) d off (a ++ b) := by
  obtain ⟨r, h1, h2, h3⟩ := hb (expandLine off pre (block v) post).2
  refine ⟨((expandLine off pre (block v) post).1 ++ r.1, r.2), ?_, ?_, ?_⟩
  · rw [Tmpl.eval, hv]
    show (do let r ← rest.eval d (expandLine off pre (block v) post).2; _) = _
    rw [h1]; rfl
  · simp only [lexLines, List.flatMap_append] at h2 ⊢
    rw [h2]
    congr 1
    exact ha.1
  · intro l hl
    rcases List.mem_append.mp hl with hl | hl
    · exact ha.2 l hl
    · exact h3 l hl

theorem rstrip_cons {c : Char} (h : isSpace c = false) (s : Txt) : rstrip (c :: s) = c :: rstrip s := by
  have hd : ∀ l : Txt, (l ++ [c]).dropWhile isSpace = l.dropWhile isSpace ++ [c] := by
    intro l
    induction l with
    | nil => simp [h]
    | cons x xs ih =>
      rw [List.cons_append, List.dropWhile_cons, List.dropWhile_cons]
      split
      · exact ih
      · rfl
  unfold rstrip
  rw [List.reverse_cons, hd]
  simp

/-- A line with a comment. -/
theorem expand_comment (p s post : Txt) (hs : '\n' ∉ s) (hp : '\n' ∉ p) (hq : '\n' ∉ post) (off : Nat) :
    lexLines (expandLine off ('/' :: '/' :: p) [s] post).1 = [] ∧ ∀ l ∈ (expandLine off ('/' :: '/' :: p) [s] post).1, '\n' ∉ l := by
  simp only [expandLine, cutBlanks_eq]
  constructor
  · simp only [lexLines, List.flatMap_singleton, List.cons_append]
    rw [rstrip_cons (by decide), rstrip_cons (by decide)]
    unfold lexLine
    rw [if_neg (by simp)]
    rw [lexFrom, if_neg (by decide), if_neg (by decide), if_pos (by simp)]
    rfl
  · intro l hl
    rw [List.mem_singleton] at hl
    subst hl
    intro h
    have := rstrip_mem h
    simp only [List.mem_append, List.mem_cons] at this
    rcases this with (( h | h | h) | h) | h
    · exact absurd h (by decide)
    · exact absurd h (by decide)
    · exact hp h
    · exact hs h
    · exact hq h

theorem twoDigits_newline (n : Nat) : '\n' ∉ twoDigits n := by
  unfold twoDigits
  rw [List.mem_append, not_or]
  exact ⟨fun h => absurd (List.mem_replicate.mp h).2 (by decide), intText_newline _⟩

theorem date_newline (d : Date) : '\n' ∉ d.text := by
  unfold Date.text
  simp [intText_newline, twoDigits_newline]

theorem date_block (d : Date) : block (.str d.text) = [d.text] := by
  show (if d.text = [] then [] else [d.text]) = _
  rw [if_neg (by simp [Date.text])]

theorem flat_cons {key : Txt} {v : Val} {d : List (Txt × Val)} (h : ∀ l ∈ block v, '\n' ∉ l) (hd : Flat d) : Flat ((key, v) :: d) := by
  intro k u hk
  rw [List.lookup_cons] at hk
  split at hk
  · cases hk; exact h
  · exact hd k u hk

theorem flat_nil : Flat [] := by intro k u h; cases h

/-- The printed text. -/
theorem print_declares {T : Tmpl} (hT : T.Good) (h0 : T.render ≠ []) {d : List (Txt × Val)} (hd : Flat d) {ds : List Decl} (cs : List Bool)
    (hc : cs.length = ds.length)
    (h : Prints T d 0 ([.word (t!"namespace"), .word (t!"ystring"), .punct '{'] ++ ((List.zipWith Decl.toks ds cs).flatten ++ [.punct '}']))) :
    ∃ out, printText (joinTxt ['\n'] T.render) d = .ok out ∧ Declares out ds := by
  obtain ⟨r, h1, h2, h3⟩ := h
  refine ⟨joinTxt ['\n'] r.1 ++ ['\n'], ?_, r.1 ++ [[]], cs, ?_, ?_, by simp, hc, ?_⟩
  · unfold printText makeText
    rw [← joinedBy_eq, C91_make_lines_partial T hT h0 d hd, h1]; simp [Except.map, bind, Except.bind]
  · rw [joinedBy_eq, joinTxt_snoc]
    · simp
    · intro e; rw [e] at h2; cases h2
  · intro l hl
    rcases List.mem_append.mp hl with hl | hl
    · exact h3 l hl
    · rw [List.mem_singleton.mp hl]; simp
  · rw [← h2]; simp [lexLines, lexLine, lexFrom, flushTok]

/-! ### The case tables -/

/-- The template of make_case_convert_file.py. -/
def caseTmpl : Tmpl :=
  .plain (t!"//****************************************************************************") <|
  .expand (t!"// Copyright © ") (t!"year") (t!" Jan Erik Breimo. All rights reserved.") <|
  .expand (t!"// Created by Jan Erik Breimo on ") (t!"date") (t!".") <|
  .plain (t!"//") <|
  .plain (t!"// This file is distributed under the Zero-Clause BSD License.") <|
  .plain (t!"// License text is included with the source distribution.") <|
  .plain (t!"//****************************************************************************") <|
  .plain (t!"#pragma once") <|
  .plain [] <|
  .plain (t!"#include \"CharMappingTypes.hpp\"") <|
  .plain [] <|
  .plain (t!"namespace ystring") <|
  .plain (t!"{") <|
  .expand (t!"    constexpr CompactCharMapping COMPACT_") (t!"name") (t!"_CASE[] =") <|
  .plain (t!"    {") <|
  .expand MARGIN (t!"compact_mappings") [] <|
  .plain (t!"    };") <|
  .plain [] <|
  .expand (t!"    constexpr CharMapping ") (t!"name") (t!"_CASE[] =") <|
  .plain (t!"    {") <|
  .expand MARGIN (t!"mappings") [] <|
  .plain (t!"    };") <|
  .plain (t!"}") <|
  .plain [] .nil

theorem caseTmpl_render : caseTmpl.render = CASE_TEMPLATE := by decide +kernel
theorem caseTmpl_good : caseTmpl.Good := by decide +kernel

theorem expand_table {rows : List Txt} (h : rows = [[]] ∨ ∀ l ∈ rows, IsRow l) {a : List CTok} (ha : rows.flatMap (lexFrom []) = a) :
    lexLines (expandLine 0 MARGIN (block (.list rows)) []).1 = a ∧ ∀ l ∈ (expandLine 0 MARGIN (block (.list rows)) []).1, '\n' ∉ l := by
  have := expand_rows h
  exact ⟨this.1.trans ha, this.2⟩

/-- The names of the case tables, in capitals. -/
inductive CaseName : Txt → Prop
  | upper : CaseName (t!"UPPER")
  | lower : CaseName (t!"LOWER")
  | title : CaseName (t!"TITLE")

theorem compact_line {name : Txt} (h : CaseName name) :
    lexLines (expandLine 0 (t!"    constexpr CompactCharMapping COMPACT_") (block (.str name)) (t!"_CASE[] =")).1 =
      [.word (t!"constexpr"), .word (t!"CompactCharMapping"), .word (t!"COMPACT_" ++ name ++ t!"_CASE"), .punct '[', .punct ']', .punct '='] ∧
    ∀ l ∈ (expandLine 0 (t!"    constexpr CompactCharMapping COMPACT_") (block (.str name)) (t!"_CASE[] =")).1, '\n' ∉ l := by
  cases h <;> exact ⟨by decide +kernel, by decide +kernel⟩

theorem mapping_line {name : Txt} (h : CaseName name) :
    lexLines (expandLine 0 (t!"    constexpr CharMapping ") (block (.str name)) (t!"_CASE[] =")).1 =
      [.word (t!"constexpr"), .word (t!"CharMapping"), .word (name ++ t!"_CASE"), .punct '[', .punct ']', .punct '='] ∧
    ∀ l ∈ (expandLine 0 (t!"    constexpr CharMapping ") (block (.str name)) (t!"_CASE[] =")).1, '\n' ∉ l := by
  cases h <;> exact ⟨by decide +kernel, by decide +kernel⟩

theorem writeCase_declares (date : Date) (diffSets : List (Nat × Int × Nat × Nat)) (mappings : List (Nat × Nat)) (name : Txt)
    (hn : CaseName (upperText name)) (hd : ∀ d ∈ diffSets, -2 ^ 32 ≤ d.2.1) :
    ∃ out, writeCase date diffSets mappings name = .ok out ∧
      Declares out [⟨t!"CompactCharMapping", t!"COMPACT_" ++ upperText name ++ t!"_CASE", (diffSets.map compactRow).map compactItem⟩,
        ⟨t!"CharMapping", upperText name ++ t!"_CASE", mappings.map (fun m => .struct [m.1, m.2])⟩] := by
  have hr1 : ∀ l ∈ diffSets.map compactText, IsRow l := by
    intro l hl
    obtain ⟨d, _, rfl⟩ := List.mem_map.mp hl
    exact isRow_compact d
  have hr2 : ∀ l ∈ mappings.map mappingText, IsRow l := by
    intro l hl
    obtain ⟨d, _, rfl⟩ := List.mem_map.mp hl
    exact isRow_mapping d
  have ht1 : (diffSets.map compactText).flatMap (lexFrom []) = each (((diffSets.map compactRow).map compactItem).map Init.toks) := by
    clear hr1
    induction diffSets with
    | nil => rfl
    | cons d ds ih =>
      rw [List.map_cons, List.flatMap_cons, ih (fun x hx => hd x (by simp [hx]))]
      have := lex_compact d (hd d (by simp)) []
      rw [List.append_nil] at this
      rw [this]
      simp [each, lexFrom, flushTok]
  have ht2 : (mappings.map mappingText).flatMap (lexFrom []) = each ((mappings.map (fun m => Init.struct [m.1, m.2])).map Init.toks) := by
    clear hr2
    induction mappings with
    | nil => rfl
    | cons d ds ih =>
      rw [List.map_cons, List.flatMap_cons, ih]
      have := lex_mapping d []
      rw [List.append_nil] at this
      rw [this]
      simp [each, lexFrom, flushTok]
  unfold writeCase
  rw [← caseTmpl_render]
  refine print_declares caseTmpl_good (by rw [caseTmpl_render]; simp [CASE_TEMPLATE]) ?_ [true, true] rfl ?_
  · refine flat_cons ?_ (flat_cons ?_ (flat_cons ?_ (flat_cons ?_ (flat_cons ?_ flat_nil))))
    · intro l hl
      rw [block, decimal_eq] at hl
      rw [List.mem_singleton.mp hl]; exact intText_newline _
    · rw [date_block]
      intro l hl
      rw [List.mem_singleton.mp hl]; exact date_newline _
    · revert hn
      generalize upperText name = u
      intro hn
      cases hn <;> decide
    · exact fun l hl => (hr1 l hl).newline
    · exact fun l hl => (hr2 l hl).newline
  · have key : Prints caseTmpl [
        (t!"year", .int date.year), (t!"date", .str date.text), (t!"name", .str (upperText name)),
        (t!"compact_mappings", .list (diffSets.map compactText)), (t!"mappings", .list (mappings.map mappingText))] 0 _ :=
      prints_plain [] (by decide) (by decide +kernel) (off := 0) <|
      prints_expand [] (v := .int date.year) rfl (by rw [block, decimal_eq]; exact expand_comment _ _ _ (intText_newline _) (by decide) (by decide) _) <|
      fun off => prints_expand [] (v := .str date.text) rfl (by rw [date_block]; exact expand_comment _ _ _ (date_newline _) (by decide) (by decide) _) <|
      prints_plain [] (by decide) (by decide +kernel) <|
      prints_plain [] (by decide) (by decide +kernel) (off := 0) <|
      prints_plain [] (by decide) (by decide +kernel) (off := 0) <|
      prints_plain [] (by decide) (by decide +kernel) (off := 0) <|
      prints_plain [] (by decide) (by decide +kernel) (off := 0) <|
      prints_plain [] (by decide) (by decide +kernel) (off := 0) <|
      prints_plain [] (by decide) (by decide +kernel) (off := 0) <|
      prints_plain [] (by decide) (by decide +kernel) (off := 0) <|
      prints_plain [.word (t!"namespace"), .word (t!"ystring")] (by decide) (by decide +kernel) (off := 0) <|
      prints_plain [.punct '{'] (by decide) (by decide +kernel) (off := 0) <|
      prints_expand _ (v := .str (upperText name)) rfl (compact_line hn) <|
      prints_plain [.punct '{'] (by decide) (by decide +kernel) <|
      prints_expand _ (v := .list (diffSets.map compactText)) rfl (expand_table (Or.inr hr1) ht1) <|
      prints_plain [.punct '}', .punct ';'] (by decide) (by decide +kernel) <|
      prints_plain [] (by decide) (by decide +kernel) (off := 0) <|
      prints_expand _ (v := .str (upperText name)) rfl (mapping_line hn) <|
      prints_plain [.punct '{'] (by decide) (by decide +kernel) <|
      prints_expand _ (v := .list (mappings.map mappingText)) rfl (expand_table (Or.inr hr2) ht2) <|
      prints_plain [.punct '}', .punct ';'] (by decide) (by decide +kernel) <|
      prints_plain [.punct '}'] (by decide) (by decide +kernel) (off := 0) <|
      prints_plain [] (by decide) (by decide +kernel) (off := 0) <|
      prints_nil _ _
    refine key.congr ?_
    simp only [Decl.toks, each_commas, List.zipWith_cons_cons, List.zipWith_nil_right, List.flatten_cons, List.flatten_nil, List.append_assoc,
      List.cons_append, List.nil_append, Bool.true_and, List.isEmpty_map]

theorem rows_newline {rows : List Txt} (h : rows = [[]] ∨ ∀ l ∈ rows, IsRow l) : ∀ l ∈ block (.list rows), '\n' ∉ l := by
  rcases h with rfl | h
  · decide
  · exact fun l hl => (h l hl).newline

theorem nums_toks (vs : List Nat) : (vs.map Init.num).map Init.toks = nums vs := by
  rw [List.map_map]; rfl

/-! ### The character class tables -/

/-- The template of make_char_class_file.py. -/
def classTmpl : Tmpl :=
  .plain (t!"//****************************************************************************") <|
  .expand (t!"// Copyright © ") (t!"year") (t!" Jan Erik Breimo. All rights reserved.") <|
  .expand (t!"// Created by Jan Erik Breimo on ") (t!"date") [] <|
  .plain (t!"//") <|
  .plain (t!"// This file is distributed under the Zero-Clause BSD License.") <|
  .plain (t!"// License text is included with the source distribution.") <|
  .plain (t!"//****************************************************************************") <|
  .plain (t!"#include <cstdint>") <|
  .plain [] <|
  .plain (t!"namespace ystring") <|
  .plain (t!"{") <|
  .plain (t!"    constexpr uint8_t ASCII_CHAR_CLASSES[] =") <|
  .plain (t!"    {") <|
  .expand MARGIN (t!"asciiClasses") [] <|
  .plain (t!"    };") <|
  .plain [] <|
  .plain (t!"    constexpr uint32_t COMPLETE_CHAR_CLASSES[] =") <|
  .plain (t!"    {") <|
  .expand MARGIN (t!"allClasses") [] <|
  .plain (t!"    };") <|
  .plain (t!"}") <|
  .plain [] .nil

theorem classTmpl_render : classTmpl.render = CLASS_TEMPLATE := by decide +kernel
theorem classTmpl_good : classTmpl.Good := by decide +kernel

theorem writeClasses_declares (date : Date) (rows1 rows2 : List Txt) (us vs : List Nat) (hr1 : rows1 = [[]] ∨ ∀ l ∈ rows1, IsRow l)
    (ht1 : rows1.flatMap (lexFrom []) = commas (nums us)) (hr2 : rows2 = [[]] ∨ ∀ l ∈ rows2, IsRow l)
    (ht2 : rows2.flatMap (lexFrom []) = commas (nums vs)) :
    ∃ out, writeClasses date rows1 rows2 = .ok out ∧
      Declares out [⟨t!"uint8_t", t!"ASCII_CHAR_CLASSES", us.map .num⟩, ⟨t!"uint32_t", t!"COMPLETE_CHAR_CLASSES", vs.map .num⟩] := by
  unfold writeClasses
  rw [← classTmpl_render]
  refine print_declares classTmpl_good (by rw [classTmpl_render]; decide) ?_ [false, false] rfl ?_
  · refine flat_cons ?_ (flat_cons ?_ (flat_cons (rows_newline hr1) (flat_cons (rows_newline hr2) flat_nil)))
    · intro l hl
      rw [block, decimal_eq] at hl
      rw [List.mem_singleton.mp hl]; exact intText_newline _
    · rw [date_block]
      intro l hl
      rw [List.mem_singleton.mp hl]; exact date_newline _
  · have key : Prints classTmpl [
        (t!"year", .int date.year), (t!"date", .str date.text), (t!"asciiClasses", .list rows1), (t!"allClasses", .list rows2)] 0 _ :=
      prints_plain [] (by decide) (by decide +kernel) (off := 0) <|
      prints_expand [] (v := .int date.year) rfl (by rw [block, decimal_eq]; exact expand_comment _ _ _ (intText_newline _) (by decide) (by decide) _) <|
      fun off => prints_expand [] (v := .str date.text) rfl (by rw [date_block]; exact expand_comment _ _ _ (date_newline _) (by decide) (by decide) _) <|
      prints_plain [] (by decide) (by decide +kernel) <|
      prints_plain [] (by decide) (by decide +kernel) (off := 0) <|
      prints_plain [] (by decide) (by decide +kernel) (off := 0) <|
      prints_plain [] (by decide) (by decide +kernel) (off := 0) <|
      prints_plain [] (by decide) (by decide +kernel) (off := 0) <|
      prints_plain [] (by decide) (by decide +kernel) (off := 0) <|
      prints_plain [.word (t!"namespace"), .word (t!"ystring")] (by decide) (by decide +kernel) (off := 0) <|
      prints_plain [.punct '{'] (by decide) (by decide +kernel) (off := 0) <|
      prints_plain [.word (t!"constexpr"), .word (t!"uint8_t"), .word (t!"ASCII_CHAR_CLASSES"), .punct '[', .punct ']', .punct '='] (by decide)
        (by decide +kernel) (off := 0) <|
      prints_plain [.punct '{'] (by decide) (by decide +kernel) (off := 0) <|
      prints_expand _ (v := .list rows1) rfl (expand_table hr1 ht1) <|
      prints_plain [.punct '}', .punct ';'] (by decide) (by decide +kernel) <|
      prints_plain [] (by decide) (by decide +kernel) (off := 0) <|
      prints_plain [.word (t!"constexpr"), .word (t!"uint32_t"), .word (t!"COMPLETE_CHAR_CLASSES"), .punct '[', .punct ']', .punct '='] (by decide)
        (by decide +kernel) (off := 0) <|
      prints_plain [.punct '{'] (by decide) (by decide +kernel) (off := 0) <|
      prints_expand _ (v := .list rows2) rfl (expand_table hr2 ht2) <|
      prints_plain [.punct '}', .punct ';'] (by decide) (by decide +kernel) <|
      prints_plain [.punct '}'] (by decide) (by decide +kernel) (off := 0) <|
      prints_plain [] (by decide) (by decide +kernel) (off := 0) <|
      prints_nil _ _
    refine key.congr ?_
    simp only [Decl.toks, List.zipWith_cons_cons, List.zipWith_nil_right, List.flatten_cons, List.flatten_nil, List.append_assoc,
      List.cons_append, List.nil_append, Bool.false_and, Bool.false_eq_true, if_false, nums_toks]

/-! ### The normalization tables -/

/-- The template of make_normalization_file.py. -/
def normTmpl : Tmpl :=
  .plain (t!"//****************************************************************************") <|
  .expand (t!"// Copyright © ") (t!"year") (t!" Jan Erik Breimo. All rights reserved.") <|
  .expand (t!"// Created by Jan Erik Breimo on ") (t!"date") [] <|
  .plain (t!"//") <|
  .plain (t!"// This file is distributed under the Zero-Clause BSD License.") <|
  .plain (t!"// License text is included with the source distribution.") <|
  .plain (t!"//****************************************************************************") <|
  .plain (t!"#include <cstdint>") <|
  .plain [] <|
  .plain (t!"namespace ystring") <|
  .plain (t!"{") <|
  .plain (t!"    constexpr uint64_t TO_DECOMPOSED[] =") <|
  .plain (t!"    {") <|
  .expand MARGIN (t!"to_normalized") [] <|
  .plain (t!"    };") <|
  .plain [] <|
  .plain (t!"    constexpr uint64_t TO_COMPOSED[] =") <|
  .plain (t!"    {") <|
  .expand MARGIN (t!"to_denormalized") [] <|
  .plain (t!"    };") <|
  .plain (t!"}") <|
  .plain [] .nil

theorem normTmpl_render : normTmpl.render = NORMALIZATION_TEMPLATE := by decide +kernel
theorem normTmpl_good : normTmpl.Good := by decide +kernel

theorem writeNormalization_declares (date : Date) (rows1 rows2 : List Txt) (us vs : List Nat) (hr1 : rows1 = [[]] ∨ ∀ l ∈ rows1, IsRow l)
    (ht1 : rows1.flatMap (lexFrom []) = commas (nums us)) (hr2 : rows2 = [[]] ∨ ∀ l ∈ rows2, IsRow l)
    (ht2 : rows2.flatMap (lexFrom []) = commas (nums vs)) :
    ∃ out, writeNormalization date rows1 rows2 = .ok out ∧
      Declares out [⟨t!"uint64_t", t!"TO_DECOMPOSED", us.map .num⟩, ⟨t!"uint64_t", t!"TO_COMPOSED", vs.map .num⟩] := by
  unfold writeNormalization
  rw [← normTmpl_render]
  refine print_declares normTmpl_good (by rw [normTmpl_render]; decide) ?_ [false, false] rfl ?_
  · refine flat_cons ?_ (flat_cons ?_ (flat_cons (rows_newline hr1) (flat_cons (rows_newline hr2) flat_nil)))
    · intro l hl
      rw [block, decimal_eq] at hl
      rw [List.mem_singleton.mp hl]; exact intText_newline _
    · rw [date_block]
      intro l hl
      rw [List.mem_singleton.mp hl]; exact date_newline _
  · have key : Prints normTmpl [
        (t!"year", .int date.year), (t!"date", .str date.text), (t!"to_normalized", .list rows1), (t!"to_denormalized", .list rows2)] 0 _ :=
      prints_plain [] (by decide) (by decide +kernel) (off := 0) <|
      prints_expand [] (v := .int date.year) rfl (by rw [block, decimal_eq]; exact expand_comment _ _ _ (intText_newline _) (by decide) (by decide) _) <|
      fun off => prints_expand [] (v := .str date.text) rfl (by rw [date_block]; exact expand_comment _ _ _ (date_newline _) (by decide) (by decide) _) <|
      prints_plain [] (by decide) (by decide +kernel) <|
      prints_plain [] (by decide) (by decide +kernel) (off := 0) <|
      prints_plain [] (by decide) (by decide +kernel) (off := 0) <|
      prints_plain [] (by decide) (by decide +kernel) (off := 0) <|
      prints_plain [] (by decide) (by decide +kernel) (off := 0) <|
      prints_plain [] (by decide) (by decide +kernel) (off := 0) <|
      prints_plain [.word (t!"namespace"), .word (t!"ystring")] (by decide) (by decide +kernel) (off := 0) <|
      prints_plain [.punct '{'] (by decide) (by decide +kernel) (off := 0) <|
      prints_plain [.word (t!"constexpr"), .word (t!"uint64_t"), .word (t!"TO_DECOMPOSED"), .punct '[', .punct ']', .punct '='] (by decide)
        (by decide +kernel) (off := 0) <|
      prints_plain [.punct '{'] (by decide) (by decide +kernel) (off := 0) <|
      prints_expand _ (v := .list rows1) rfl (expand_table hr1 ht1) <|
      prints_plain [.punct '}', .punct ';'] (by decide) (by decide +kernel) <|
      prints_plain [] (by decide) (by decide +kernel) (off := 0) <|
      prints_plain [.word (t!"constexpr"), .word (t!"uint64_t"), .word (t!"TO_COMPOSED"), .punct '[', .punct ']', .punct '='] (by decide)
        (by decide +kernel) (off := 0) <|
      prints_plain [.punct '{'] (by decide) (by decide +kernel) (off := 0) <|
      prints_expand _ (v := .list rows2) rfl (expand_table hr2 ht2) <|
      prints_plain [.punct '}', .punct ';'] (by decide) (by decide +kernel) <|
      prints_plain [.punct '}'] (by decide) (by decide +kernel) (off := 0) <|
      prints_plain [] (by decide) (by decide +kernel) (off := 0) <|
      prints_nil _ _
    refine key.congr ?_
    simp only [Decl.toks, List.zipWith_cons_cons, List.zipWith_nil_right, List.flatten_cons, List.flatten_nil, List.append_assoc,
      List.cons_append, List.nil_append, Bool.false_and, Bool.false_eq_true, if_false, nums_toks]

/-! ### The tables for a database -/

/-- The sets of code points with the same difference come from the database. -/
theorem caseSets_mem (lines : List (Nat × Nat)) :
    (∀ d ∈ (caseSets lines).1, ∃ m vs diff, d = (makeDiffSet m diff vs).1 ∧ (∀ p ∈ vs, p ∈ lines ∧ p.1 / 32 * 32 = m) ∧ ∃ p ∈ vs, (p.2 : Int) - p.1 = diff) ∧
    (∀ p ∈ (caseSets lines).2, p ∈ lines) := by
  have hblock : ∀ x ∈ (lines.foldl addChar []).mergeSort (fun a b => a.1 ≤ b.1), ∀ p ∈ x.2, p ∈ lines ∧ p.1 / 32 * 32 = x.1 := by
    intro x hx p hp
    have h2 := ((addChar_spec lines).2.1 x ((List.mergeSort_perm _ _).mem_iff.mp hx)).1
    exact (mem_block h2 p).mp hp
  unfold caseSets
  revert hblock
  generalize (lines.foldl addChar []).mergeSort (fun a b => a.1 ≤ b.1) = xs
  have gen : ∀ (xs : List (Nat × List (Nat × Nat))) (acc : List (Nat × Int × Nat × Nat) × List (Nat × Nat)),
      (∀ x ∈ xs, ∀ p ∈ x.2, p ∈ lines ∧ p.1 / 32 * 32 = x.1) →
      (∀ d ∈ acc.1, ∃ m vs diff, d = (makeDiffSet m diff vs).1 ∧ (∀ p ∈ vs, p ∈ lines ∧ p.1 / 32 * 32 = m) ∧ ∃ p ∈ vs, (p.2 : Int) - p.1 = diff) →
      (∀ p ∈ acc.2, p ∈ lines) →
      (∀ d ∈ (xs.foldl caseStep acc).1,
        ∃ m vs diff, d = (makeDiffSet m diff vs).1 ∧ (∀ p ∈ vs, p ∈ lines ∧ p.1 / 32 * 32 = m) ∧ ∃ p ∈ vs, (p.2 : Int) - p.1 = diff) ∧
      (∀ p ∈ (xs.foldl caseStep acc).2, p ∈ lines) := by
    intro xs
    induction xs with
    | nil => intro acc _ h1 h2; exact ⟨h1, h2⟩
    | cons x xs ih =>
      intro acc hx h1 h2
      rw [List.foldl_cons]
      have hxx := hx x (by simp)
      refine ih _ (fun y hy => hx y (by simp [hy])) ?_ ?_
      · intro d hd
        unfold caseStep at hd
        simp only at hd
        split at hd
        · rename_i h3
          rcases List.mem_append.mp hd with hd | hd
          · exact h1 d hd
          · rw [List.mem_singleton.mp hd]
            exact ⟨_, _, _, rfl, hxx, mostPrevalent_occurs x.2 (by omega)⟩
        · exact h1 d hd
      · intro p hp
        unfold caseStep at hp
        simp only at hp
        have hrem : ∀ (vs : List (Nat × Nat)) (m : Nat) (diff : Int) (b n : Nat) (rem : List (Nat × Nat)), ∀ p ∈ (diffSetLoop m diff vs b n rem).2.2,
            p ∈ rem ∨ p ∈ vs := by
          intro vs m diff
          induction vs with
          | nil => intro b n rem p hp; exact Or.inl hp
          | cons v vs ih =>
            intro b n rem p hp
            obtain ⟨v, w⟩ := v
            rw [diffSetLoop] at hp
            split at hp
            · rcases ih _ _ _ p hp with h | h
              · exact Or.inl h
              · exact Or.inr (by simp [h])
            · rcases ih _ _ _ p hp with h | h
              · rcases List.mem_append.mp h with h | h
                · exact Or.inl h
                · exact Or.inr (by rw [List.mem_singleton.mp h]; simp)
              · exact Or.inr (by simp [h])
        split at hp
        · rcases List.mem_append.mp hp with hp | hp
          · exact h2 p hp
          · rcases hrem x.2 x.1 _ 0 0xFFFFFFFF [] p hp with h | h
            · cases h
            · exact (hxx p h).1
        · rcases List.mem_append.mp hp with hp | hp
          · exact h2 p hp
          · exact (hxx p hp).1
  exact fun h => gen xs ([], []) h (by simp) (by simp)

theorem caseTables_sets (lines : List (Nat × Nat)) : caseTables lines = ((caseSets lines).1.map compactRow, (caseSets lines).2) := rfl

theorem kind_name (k : CaseKind) : upperText (titleText false k.arg) = k.caps ∧ CaseName (upperText (titleText false k.arg)) := by
  have h : upperText (titleText false k.arg) = k.caps := by revert k; intro k; cases k <;> decide +kernel
  refine ⟨h, ?_⟩
  rw [h]
  cases k
  · exact .upper
  · exact .lower
  · exact .title

/-- C93: the header that make_case_convert_file.py prints for a database declares the case tables (those of C81). -/
theorem C93_case_header (k : CaseKind) (date : Date) (es : List Entry) (file : Txt) (h : Database es file) (hb : ∀ e ∈ es, e.id < 2 ^ 32) :
    ∃ out, caseMain date k.arg file = .ok out ∧ Declares out (caseHeader k (caseTables (k.pairs es)).1 (caseTables (k.pairs es)).2) := by
  have hread : ∃ back, alternativeIndex (titleText false k.arg) = .ok back ∧
      (fileLines file).mapM (caseLine back) = .ok (es.map (fun e => (k.field e).map (fun w => (e.id, w)))) := by
    cases k
    · exact ⟨3, by rfl, mapM_database caseLine_upper h⟩
    · exact ⟨2, by rfl, mapM_database caseLine_lower h⟩
    · exact ⟨1, by rfl, mapM_database caseLine_title h⟩
  obtain ⟨back, h1, h2⟩ := hread
  obtain ⟨hn1, hn2⟩ := kind_name k
  have hp : (es.map (fun e => (k.field e).map (fun w => (e.id, w)))).filterMap id = k.pairs es := by
    unfold CaseKind.pairs
    rw [List.filterMap_map]; rfl
  obtain ⟨out, ho, hdecl⟩ := writeCase_declares date (caseSets (k.pairs es)).1 (caseSets (k.pairs es)).2 (titleText false k.arg) hn2 (by
    intro d hd
    obtain ⟨m, vs, diff, rfl, hv, p, hpv, hpd⟩ := (caseSets_mem (k.pairs es)).1 d hd
    have hpl := (hv p hpv).1
    unfold CaseKind.pairs at hpl
    obtain ⟨e, he, hee⟩ := List.mem_filterMap.mp hpl
    rw [Option.map_eq_some_iff] at hee
    obtain ⟨w, _, rfl⟩ := hee
    have := hb e he
    show (-2 ^ 32 : Int) ≤ diff
    rw [← hpd]
    simp only
    omega)
  refine ⟨out, ?_, ?_⟩
  · unfold caseMain
    simp only [h1, h2, hp, bind, Except.bind]
    exact ho
  · rw [hn1] at hdecl
    exact hdecl

/-- C93: the header that make_char_class_file.py prints for a database declares the tables of the character classes (those of C82). -/
theorem C93_class_header (date : Date) (es : List Entry) (file : Txt) (h : Database es file) (h0 : es ≠ []) :
    ∃ out, classMain date file = .ok out ∧
      Declares out (classHeader (asciiTable (es.map (fun e => (e.id, e.category)))) (classTable (es.map (fun e => (e.id, e.category))))) := by
  obtain ⟨out, ho, hdecl⟩ := writeClasses_declares date _ _ _ _ (asciiRows_rows (es.map (fun e => (e.id, e.category)))) (lex_asciiRows _)
    (tableRows_rows 8 5 (by decide) (classTable (es.map (fun e => (e.id, e.category))))) (lex_tableRows 8 5 (by decide) _)
  refine ⟨out, ?_, hdecl⟩
  unfold classMain
  rw [mapM_database classLine_entry h]
  show (if _ then _ else _) = _
  rw [if_neg]
  · exact ho
  · intro hr
    have hflush : ∀ (ls : List (Nat × Nat)) (s : RangeState), (s.rangeClass = none → ls ≠ []) → (ls.foldl (rangeStep KNOWN_RANGES) s).flush ≠ [] := by
      intro ls
      induction ls with
      | nil =>
        intro s hs hf
        unfold RangeState.flush at hf
        simp only [List.foldl_nil] at hf
        cases hc : s.rangeClass with
        | none => exact hs hc rfl
        | some k => rw [hc] at hf; simp at hf
      | cons l ls ih =>
        intro s _
        rw [List.foldl_cons]
        refine ih _ ?_
        intro hc
        unfold rangeStep at hc
        split at hc
        · rename_i hk; simp only at hc; rw [hc] at hk; exact absurd hk.2 (by simp)
        · simp at hc
    exact hflush _ ⟨[], none, 0, 0⟩ (fun _ => by simpa using h0) hr

theorem getRules_decompOf (es : List Entry) : getRules (es.map decompOf) = getRules (es.map (fun e => ⟨e.id, e.tagged, e.decomposition⟩)) := by
  unfold getRules
  rw [List.filterMap_map, List.filterMap_map]
  congr 1
  funext e
  obtain ⟨_, _, tagged, _, _, _, _⟩ := e
  cases tagged <;> simp [Function.comp, decompOf]

/-- C93: the header that make_normalization_file.py prints for a database declares the tables of the decompositions (those of C83). -/
theorem C93_normalization_header (date : Date) (es : List Entry) (file : Txt) (h : Database es file) :
    ∃ out, normalizationMain date file = .ok out ∧
      Declares out (normalizationHeader
        (decomposedTable (getRules (es.map (fun e => ⟨e.id, e.tagged, e.decomposition⟩))))
        (composedTable (getRules (es.map (fun e => ⟨e.id, e.tagged, e.decomposition⟩))))) := by
  obtain ⟨out, ho, hdecl⟩ := writeNormalization_declares date _ _ _ _
    (tableRows_rows 16 3 (by decide) (decomposedTable (getRules (es.map decompOf)))) (lex_tableRows 16 3 (by decide) _)
    (tableRows_rows 16 3 (by decide) (composedTable (getRules (es.map decompOf)))) (lex_tableRows 16 3 (by decide) _)
  refine ⟨out, ?_, ?_⟩
  · unfold normalizationMain
    rw [mapM_database decompLine_entry h]
    have : (es.map (fun e => some (decompOf e))).filterMap id = es.map decompOf := by
      clear h ho hdecl
      induction es with
      | nil => rfl
      | cons e es ih => simp only [List.map_cons, List.filterMap_cons, id, ih]
    simp only [bind, Except.bind, this]
    exact ho
  · rw [getRules_decompOf] at hdecl; exact hdecl

end Ystring
