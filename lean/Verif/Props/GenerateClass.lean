import Verif.Proofs.GenerateClass
import Verif.Proofs.GenerateClassData
import Verif.Props.CharClass
/-
C82: the generator of the character class tables.
-/
namespace Ystring
open Spec

/-- C82. `lines` are the code points of a database, ascending, with the numbers 1..30 of their categories. `get_char_class`,
computed with the tables that make_char_class_file.py generates, gives every code point below 2^21 the category of its line.
Code points without a line are unassigned, except between two neighbouring lines of the same category of which the second is
in the set `known` (`KnownRanges`): they get that category. (The value of `charClassShiftIn` is the number minus 1.) -/
theorem C82_class_tables (known : List Nat) (lines : List (Nat × Nat)) (ha : lines.Pairwise (fun a b => a.1 < b.1))
    (hk : ∀ l ∈ lines, l.1 < 2 ^ 21 ∧ 1 ≤ l.2 ∧ l.2 ≤ 30) (h128 : ∀ i < 128, ∃ k, (i, k) ∈ lines)
    (c : Char32) (hc : c.toNat < 2 ^ 21) :
    let cls := (charClassShiftIn (Gen.asciiTable lines) (Gen.classTableWith known lines) c).toNat + 1
    (∀ k, (c.toNat, k) ∈ lines → cls = k) ∧
    (∀ l1 x y l2, lines = l1 ++ x :: y :: l2 → x.1 < c.toNat → c.toNat < y.1 →
      cls = if y.1 ∈ known ∧ x.2 = y.2 then y.2 else 30) ∧
    ((∀ l ∈ lines, l.1 < c.toNat) → cls = 30) := by
  have hasc : Gen.Ascends 0 lines := Gen.ascends_of_pairwise lines 0 ha (fun l hl => ⟨Nat.zero_le _, (hk l hl).2⟩)
  have main := Gen.classTables_eq known lines ha hk h128 c hc
  simp only
  rw [main]
  refine ⟨fun k hm => Gen.classFrom_mem hasc hm, ?_, ?_⟩
  · rintro l1 x y l2 rfl hx hy
    exact Gen.classFrom_gap hasc hx hy
  · intro hl
    refine Gen.classFrom_else hasc (fun k hm => ?_) (by simp) ?_
    · have := hl _ hm; simp only at this; omega
    · rintro l1 x y l2 rfl ⟨_, h2⟩
      have := hl y (by simp)
      omega

/-- C82. The table of src/Ystring is the one that is generated from UnicodeData16.0.0.txt with the set `KnownRanges` of the
script. -/
theorem C82_generated : Gen.classTable UD_LINES = COMPLETE_CHAR_CLASSES ∧ Gen.asciiTable UD_LINES = ASCII_CHAR_CLASSES := by
  refine ⟨?_, ?_⟩
  · unfold Gen.classTable
    rw [Gen.UD_LINES_runs]
    exact Gen.classTable_check Gen.runs_ok Gen.stream_UD
  · have h := Gen.asciiTable_length 128 UD_LINES 0 Gen.UD_ascends rfl (fun i _ hi => Gen.UD_lines_ascii i hi)
    refine List.ext_getElem (by rw [h, ascii_length]) ?_
    intro i h1' h2
    have h1 := h1'
    rw [h] at h1
    obtain ⟨k, hk⟩ := Gen.UD_lines_ascii i h1
    have hget := Gen.ascii_getD 128 UD_LINES 0 Gen.UD_ascends rfl (fun i _ hi => Gen.UD_lines_ascii i hi) i (Nat.zero_le _) h1 k hk
    rw [Nat.sub_zero] at hget
    rw [← getD_getElem _ _ h1', ← getD_getElem _ _ h2, hget]
    have hcat := Gen.classFrom_rows Gen.UD_rows i (Nat.zero_le _)
    rw [← Gen.UD_LINES_runs, Gen.classFrom_mem Gen.UD_ascends hk] at hcat
    rw [hcat, Nat.add_sub_cancel]
    have hall : (List.range 128).all (fun i => Nat.beq (Gen.catIn UD_RANGES i) (ASCII_CHAR_CLASSES.getD i 0)) = true := by
      decide +kernel
    exact Nat.eq_of_beq_eq_true (List.all_eq_true.mp hall i (List.mem_range.mpr h1))

/-- C82, the cause of `C50_false`: `KnownRanges` lacks the last code points of the ideograph ranges of the database. With
those in the set, `get_char_class` with the generated tables gives every code point its general category. -/
theorem C82_complete_set (c : Char32) (hc : c.toNat < 2 ^ 21) :
    (charClassShiftIn (Gen.asciiTable UD_LINES) (Gen.classTableWith UD_LAST UD_LINES) c).toNat = generalCategory c.toNat := by
  have h := Gen.classTables_eq UD_LAST UD_LINES Gen.UD_pairwise Gen.UD_lines_ok Gen.UD_lines_ascii c hc
  have hcat := Gen.classFrom_rows Gen.UD_rows c.toNat (Nat.zero_le _)
  rw [← Gen.UD_LINES_runs] at hcat
  rw [hcat] at h
  exact Nat.add_right_cancel h

/-- The set of the script is not complete: 11 of the 19 ranges of the file end elsewhere. -/
theorem C82_false_known : (UD_LAST.filter (fun c => c ∉ Gen.KNOWN_RANGES)).length = 11 ∧
    UD_LAST.filter (fun c => c ∉ Gen.KNOWN_RANGES) = ideographBlocks.map (·.2) := by decide +kernel

/-- A small database: the ASCII code points (digits, letters and the rest as symbols), and a range from 200 to 300 of which
only the first and the last code point have lines. -/
def smallDatabase : List (Nat × Nat) :=
  (List.range 128).map (fun i => (i, if 48 ≤ i ∧ i ≤ 57 then 9 else if 65 ≤ i ∧ i ≤ 90 then 1 else 22)) ++
    [(140, 1), (141, 2), (142, 1), (200, 5), (300, 5)]

/-- The hypotheses of `C82_class_tables` hold for it. -/
example : smallDatabase.Pairwise (fun a b => a.1 < b.1) ∧ (∀ l ∈ smallDatabase, l.1 < 2 ^ 21 ∧ 1 ≤ l.2 ∧ l.2 ≤ 30) ∧
    (∀ i < 128, ∃ k, (i, k) ∈ smallDatabase) := by
  refine ⟨by decide +kernel, by decide +kernel, ?_⟩
  intro i hi
  refine ⟨if 48 ≤ i ∧ i ≤ 57 then 9 else if 65 ≤ i ∧ i ≤ 90 then 1 else 22, ?_⟩
  exact List.mem_append_left _ (List.mem_map.mpr ⟨i, List.mem_range.mpr hi, rfl⟩)

/-- Its table; with 300 in the set of known ranges the last two entries are one. -/
example : Gen.classTableWith [] smallDatabase = [Gen.encodeValue 47 (.one 22), Gen.encodeValue 57 (.one 9),
      Gen.encodeValue 64 (.one 22), Gen.encodeValue 90 (.one 1), Gen.encodeValue 127 (.one 22), Gen.encodeValue 139 (.one 30),
      Gen.encodeValue 142 (.alternating 1), Gen.encodeValue 200 (.two 30 5), Gen.encodeValue 300 (.two 30 5)] ∧
    (Gen.classTableWith [300] smallDatabase).drop 7 = [Gen.encodeValue 199 (.one 30), Gen.encodeValue 300 (.one 5)] := by
  decide +kernel

end Ystring
