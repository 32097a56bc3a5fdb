import Verif.Model.CharClass
import Verif.Spec.CharClass
import Verif.Proofs.Search
namespace Ystring
open Spec

/-- `decodeCharClass` in terms of natural numbers -/
def decN (c e : Nat) : Nat :=
  if e / 32 % 64 = 0 then e % 32 - 1
  else if e / 32 % 64 = 32 then (if (c + e / 2048) % 2 = 0 then e % 32 - 1 else 1 - (e % 32 - 1))
  else if c = e / 2048 then e % 32 - 1
  else e / 32 % 64 - 1

/-- well-formed table entry -/
def wfEntry (e : Nat) : Bool :=
  e < 4294967296 && 1 ≤ e % 32 && e % 32 ≤ 30 && (e / 32 % 64 ≤ 30 || (e / 32 % 64 = 32 && e % 32 ≤ 2))

theorem sub_one_toNat {a : UInt32} (h : 1 ≤ a.toNat) : (a - 1).toNat = a.toNat - 1 := by
  have := a.toNat_lt
  rw [UInt32.toNat_sub]
  have : UInt32.toNat 1 = 1 := rfl
  simp only [this, Nat.reducePow]; omega

theorem decode_decN (c : Char32) (e : Nat) (h : wfEntry e = true) :
    (decodeCharClass c (UInt32.ofNat e)).toNat = decN c.toNat e := by
  simp only [wfEntry, Bool.and_eq_true, decide_eq_true_eq, Bool.or_eq_true] at h
  obtain ⟨⟨⟨h0, h1⟩, h2⟩, h3⟩ := h
  have he : (UInt32.ofNat e).toNat = e := UInt32.toNat_ofNat_of_lt' h0
  have hl : ((UInt32.ofNat e) &&& 0x1F).toNat = e % 32 := by
    rw [UInt32.toNat_and, he]
    have : UInt32.toNat 31 = 2 ^ 5 - 1 := rfl
    rw [this, Nat.and_two_pow_sub_one_eq_mod]
  have hu : (((UInt32.ofNat e) >>> 5) &&& 0x3F).toNat = e / 32 % 64 := by
    rw [UInt32.toNat_and, UInt32.toNat_shiftRight, he]
    have h3 : UInt32.toNat 63 = 2 ^ 6 - 1 := rfl
    have h5 : UInt32.toNat 5 % 32 = 5 := rfl
    rw [h3, h5, Nat.and_two_pow_sub_one_eq_mod, Nat.shiftRight_eq_div_pow]
  have hen : ((UInt32.ofNat e) >>> 11).toNat = e / 2048 := by
    rw [UInt32.toNat_shiftRight, he]
    have h5 : UInt32.toNat 11 % 32 = 11 := rfl
    rw [h5, Nat.shiftRight_eq_div_pow]
  have hx : ((c ^^^ ((UInt32.ofNat e) >>> 11)) &&& 1).toNat = (c.toNat + e / 2048) % 2 := by
    rw [UInt32.toNat_and, UInt32.toNat_xor, hen]
    have h1 : UInt32.toNat 1 = 2 ^ 1 - 1 := rfl
    rw [h1, Nat.and_two_pow_sub_one_eq_mod, Nat.xor_mod_two_pow]
    have a := Nat.mod_two_eq_zero_or_one c.toNat
    have b := Nat.mod_two_eq_zero_or_one (e / 2048)
    rcases a with a | a <;> rcases b with b | b <;> simp [a, b, Nat.add_mod]
  have hl1 : ((UInt32.ofNat e &&& 0x1F) - 1).toNat = e % 32 - 1 := by
    rw [sub_one_toNat (by omega), hl]
  unfold decodeCharClass decN
  simp only [← UInt32.toNat_inj, hu, hen, hx, ne_eq]
  have z0 : UInt32.toNat 0 = 0 := rfl
  have z32 : UInt32.toNat 32 = 32 := rfl
  have z1 : UInt32.toNat 1 = 1 := rfl
  simp only [z0, z32]
  by_cases c1 : e / 32 % 64 = 0
  · rw [if_pos c1, if_pos c1, hl1]
  · rw [if_neg c1, if_neg c1]
    by_cases c2 : e / 32 % 64 = 32
    · rw [if_pos c2, if_pos c2]
      by_cases c3 : (c.toNat + e / 2048) % 2 = 0
      · rw [if_neg (by simpa using c3), if_pos c3, hl1]
      · rw [if_pos c3, if_neg c3, UInt32.toNat_sub, hl1, z1]
        simp only [Nat.reducePow]; omega
    · rw [if_neg c2, if_neg c2]
      split
      · exact hl1
      · rw [sub_one_toNat (by omega), hu]

theorem decN_lt (c e : Nat) (h : wfEntry e = true) : decN c e < 30 := by
  simp only [wfEntry, Bool.and_eq_true, decide_eq_true_eq, Bool.or_eq_true] at h
  unfold decN
  repeat' split
  all_goals omega

theorem table_wf : COMPLETE_CHAR_CLASSES.all wfEntry = true := by decide +kernel
theorem table_sorted : isSortedBy id COMPLETE_CHAR_CLASSES = true := by decide +kernel
theorem ascii_length : ASCII_CHAR_CLASSES.length = 128 := by decide +kernel
theorem ascii_lt : ASCII_CHAR_CLASSES.all (fun x => decide (x < 30)) = true := by decide +kernel

/-- class by linear search in the rest of the table -/
def classLin (tbl : List Nat) (c key : Nat) : Nat :=
  match tbl.find? (fun e => decide (key ≤ e)) with
  | none => 29
  | some e => decN c e

theorem lt128 (c : Char32) : c < 128 ↔ c.toNat < 128 := by
  rw [UInt32.lt_iff_toNat_lt]; rfl

theorem charClassShiftIn_table (ascii tbl : List Nat) (hsort : isSortedBy id tbl = true) (hwf : tbl.all wfEntry = true)
    (c : Char32) (h : 128 ≤ c.toNat) :
    (charClassShiftIn ascii tbl c).toNat = classLin tbl c.toNat ((c.toNat * 2048) % 4294967296) := by
  unfold charClassShiftIn classLin
  have hc : ¬ c < 128 := by rw [lt128]; omega
  have hk : (c <<< (11 : UInt32)).toNat = (c.toNat * 2048) % 4294967296 := by
    rw [UInt32.toNat_shiftLeft]
    have h5 : UInt32.toNat 11 % 32 = 11 := rfl
    rw [h5, Nat.shiftLeft_eq]
  rw [if_neg hc]
  simp only [hk]
  generalize (c.toNat * 2048) % 4294967296 = key
  have hs := pairwise_of_isSortedBy hsort
  have hf := lowerBound_find tbl 0 id key (by simpa using hs)
  simp only [id] at hf
  rw [hf]
  generalize hn : lowerBound _ _ = n
  by_cases h1 : n = tbl.length
  · rw [if_pos h1, List.getElem?_eq_none (by omega)]; rfl
  · rw [if_neg h1]
    have hle : n ≤ tbl.length := by
      rw [← hn]
      refine (lowerBound_spec _ _ ?_).1
      intro i j hij hj h
      have h1 := List.pairwise_iff_getElem.mp hs i j (by omega) hj hij
      simp only [decide_eq_true_eq, id] at h h1 ⊢
      rw [getD_getElem _ _ (by omega)] at h ⊢
      omega
    have hlt : n < tbl.length := by omega
    rw [List.getElem?_eq_getElem hlt, getD_getElem _ _ hlt]
    exact decode_decN c _ (List.all_eq_true.mp hwf _ (List.getElem_mem hlt))

theorem charClassShift_table (c : Char32) (h : 128 ≤ c.toNat) :
    (charClassShift c).toNat = classLin COMPLETE_CHAR_CLASSES c.toNat ((c.toNat * 2048) % 4294967296) :=
  charClassShiftIn_table _ _ table_sorted table_wf c h

theorem charClassShift_ascii (c : Char32) (h : c.toNat < 128) :
    (charClassShift c).toNat = ASCII_CHAR_CLASSES.getD c.toNat 0 ∧ (charClassShift c).toNat < 30 := by
  unfold charClassShift charClassShiftIn
  have hl : c.toNat < ASCII_CHAR_CLASSES.length := by rw [ascii_length]; exact h
  have := List.all_eq_true.mp ascii_lt _ (List.getElem_mem hl)
  simp only [decide_eq_true_eq] at this
  rw [if_pos ((lt128 c).mpr h), getD_getElem _ _ hl, UInt32.toNat_ofNat_of_lt' (by show _ < 4294967296; omega)]
  exact ⟨rfl, this⟩

/-- The shift count is always below 30: the shift in `get_char_class` is defined. -/
theorem charClassShift_lt (c : Char32) : (charClassShift c).toNat < 30 := by
  by_cases h : c.toNat < 128
  · exact (charClassShift_ascii c h).2
  · rw [charClassShift_table c (by omega)]
    unfold classLin
    split
    · omega
    · rename_i e he
      exact decN_lt _ _ (List.all_eq_true.mp table_wf e (List.mem_of_find?_eq_some he))

/-! ### Comparison with the Unicode data -/

/-- the range starting at `f` is one of the ideograph blocks -/
def isIdeo (f : Nat) : Bool := ideographBlocks.any (fun r => Nat.beq r.1 f)

/-- what the table says: own lines, the first and last line of an ideograph block, and all code points of
the other blocks -/
def ownCategoryIn (rows : List (Nat × Nat × Nat × Nat)) (c : Nat) : Nat :=
  match rows.find? (fun r => decide (r.1 ≤ c ∧ c ≤ r.2.1)) with
  | some (f, l, g, _) => if isIdeo f = false ∨ c = f ∨ c = l then g else 29
  | none => 29

/-- contiguous cover of the code points from `pos` on: (last, class) -/
def coverOf : Nat → List (Nat × Nat × Nat × Nat) → List (Nat × Nat)
  | _, [] => [(0x1FFFFF, 29)]
  | pos, (f, l, g, _) :: rows =>
    (if pos < f then [(f - 1, 29)] else []) ++
    ((if isIdeo f = false then [(l, g)] else [(f, g), (l - 1, 29), (l, g)]) ++ coverOf (l + 1) rows)

def rowsOK : Nat → List (Nat × Nat × Nat × Nat) → Bool
  | _, [] => true
  | pos, (f, l, _, _) :: rows => Nat.ble pos f && Nat.ble f l && rowsOK (l + 1) rows

theorem cover_correct (rows : List (Nat × Nat × Nat × Nat)) : ∀ (pos c : Nat), rowsOK pos rows = true →
    pos ≤ c → c ≤ 0x1FFFFF →
    ∃ b, (coverOf pos rows).find? (fun r => decide (c ≤ r.1)) = some (b, ownCategoryIn rows c) := by
  induction rows with
  | nil =>
    intro pos c _ _ h
    exact ⟨0x1FFFFF, by simp [coverOf, ownCategoryIn, h]⟩
  | cons r rows ih =>
    obtain ⟨f, l, g, k⟩ := r
    intro pos c h1 h2 h3
    simp only [rowsOK, Bool.and_eq_true, Nat.ble_eq] at h1
    obtain ⟨⟨hf, hl⟩, hr⟩ := h1
    have own_later : l < c → ownCategoryIn ((f, l, g, k) :: rows) c = ownCategoryIn rows c := by
      intro h; unfold ownCategoryIn
      rw [List.find?_cons_of_neg]
      simp only [decide_eq_true_eq]; omega
    have own_here : f ≤ c → c ≤ l → ownCategoryIn ((f, l, g, k) :: rows) c =
        if isIdeo f = false ∨ c = f ∨ c = l then g else 29 := by
      intro h h'; unfold ownCategoryIn
      rw [List.find?_cons_of_pos]
      simp only [decide_eq_true_eq]; omega
    have own_before : c < f → ownCategoryIn ((f, l, g, k) :: rows) c = 29 := by
      intro h
      unfold ownCategoryIn
      rw [List.find?_eq_none.mpr]
      have gen : ∀ (rows : List (Nat × Nat × Nat × Nat)) (pos : Nat), rowsOK pos rows = true → c < pos →
          ∀ r ∈ rows, ¬ (r.1 ≤ c ∧ c ≤ r.2.1) := by
        intro rows
        induction rows with
        | nil => intro _ _ _ r hr; cases hr
        | cons r rows ih =>
          obtain ⟨f, l, g, k⟩ := r
          intro pos h1 h2 r hr
          simp only [rowsOK, Bool.and_eq_true, Nat.ble_eq] at h1
          rcases List.mem_cons.mp hr with rfl | hr
          · simp only; omega
          · exact ih (l + 1) h1.2 (by omega) r hr
      intro r hr'
      simp only [decide_eq_true_eq]
      rcases List.mem_cons.mp hr' with rfl | hr'
      · simp only; omega
      · exact gen rows (l + 1) hr (by omega) r hr'
    simp only [coverOf]
    by_cases hc : c < f
    · refine ⟨f - 1, ?_⟩
      rw [if_pos (by omega), List.singleton_append, List.find?_cons_of_pos (by simp only [decide_eq_true_eq]; omega), own_before hc]
    · have : (if pos < f then [(f - 1, 29)] else []).find? (fun r : Nat × Nat => decide (c ≤ r.1)) = none := by
        split
        · simp; omega
        · rfl
      rw [List.find?_append, this, Option.none_or]
      by_cases hc2 : l < c
      · have : (if isIdeo f = false then [(l, g)] else [(f, g), (l - 1, 29), (l, g)]).find?
            (fun r : Nat × Nat => decide (c ≤ r.1)) = none := by
          rw [List.find?_eq_none]
          intro x hx
          simp only [decide_eq_true_eq]
          split at hx
          · simp at hx; subst hx; simp only; omega
          · simp at hx; rcases hx with rfl | rfl | rfl <;> simp only <;> omega
        rw [List.find?_append, this, Option.none_or, own_later hc2]
        exact ih (l + 1) c hr (by omega) h3
      · rw [own_here (by omega) (by omega), List.find?_append]
        by_cases hk : isIdeo f = false
        · rw [if_pos hk, if_pos (.inl hk)]
          exact ⟨l, by rw [List.find?_cons_of_pos (by simp only [decide_eq_true_eq]; omega)]; rfl⟩
        · rw [if_neg hk]
          by_cases e1 : c = f
          · rw [if_pos (.inr (.inl e1))]
            exact ⟨f, by rw [List.find?_cons_of_pos (by simp only [decide_eq_true_eq]; omega)]; rfl⟩
          · rw [List.find?_cons_of_neg (by simp only [decide_eq_true_eq]; omega)]
            by_cases e2 : c = l
            · rw [if_pos (.inr (.inr e2)), List.find?_cons_of_neg (by simp only [decide_eq_true_eq]; omega),
                List.find?_cons_of_pos (by simp only [decide_eq_true_eq]; omega)]
              exact ⟨l, rfl⟩
            · rw [if_neg (fun h => h.elim hk (fun h => h.elim e1 e2)), List.find?_cons_of_pos (by simp only [decide_eq_true_eq]; omega)]
              exact ⟨l - 1, rfl⟩

/-- all code points from `lo` to `hi` (inside one entry) have class `g` -/
def segOK (e lo hi g : Nat) : Bool :=
  if e / 32 % 64 = 0 then Nat.beq (e % 32 - 1) g
  else if e / 32 % 64 = 32 then (List.range' lo (hi + 1 - lo)).all (fun c => Nat.beq (decN c e) g)
  else (Nat.beq lo hi && Nat.beq (decN lo e) g) ||
    (Nat.blt hi (e / 2048) && Nat.beq (e / 32 % 64 - 1) g) ||
    (Nat.beq (e / 32 % 64 - 1) g && Nat.beq (e % 32 - 1) g)

theorem segOK_correct {e lo hi g : Nat} (h : segOK e lo hi g = true) (c : Nat) (h1 : lo ≤ c)
    (h2 : c ≤ hi) : decN c e = g := by
  unfold segOK at h
  by_cases c1 : e / 32 % 64 = 0
  · rw [if_pos c1] at h
    unfold decN; rw [if_pos c1]; exact Nat.eq_of_beq_eq_true h
  · rw [if_neg c1] at h
    by_cases c2 : e / 32 % 64 = 32
    · rw [if_pos c2, List.all_eq_true] at h
      exact Nat.eq_of_beq_eq_true (h c (by rw [List.mem_range'_1]; omega))
    · rw [if_neg c2] at h
      simp only [Bool.or_eq_true, Bool.and_eq_true, Nat.beq_eq, Nat.blt_eq] at h
      rcases h with (h | h) | h
      · have : c = lo := by omega
        rw [this]; exact h.2
      · unfold decN; rw [if_neg c1, if_neg c2, if_neg (by omega)]; exact h.2
      · unfold decN; rw [if_neg c1, if_neg c2]; split <;> omega

def mergeCheck : Nat → Nat → List (Nat × Nat) → List Nat → Bool
  | 0, _, _, _ => false
  | _ + 1, _, [], _ => true
  | fuel + 1, lo, (b, g) :: cov, [] => Nat.ble lo b && Nat.beq g 29 && mergeCheck fuel (b + 1) cov []
  | fuel + 1, lo, (b, g) :: cov, e :: tbl =>
    Nat.ble lo b && Nat.ble lo (e / 2048) &&
    (if b < e / 2048 then segOK e lo b g && mergeCheck fuel (b + 1) cov (e :: tbl)
     else if b = e / 2048 then segOK e lo b g && mergeCheck fuel (b + 1) cov tbl
     else segOK e lo (e / 2048) g && mergeCheck fuel (e / 2048 + 1) ((b, g) :: cov) tbl)

/-- class by linear search, in terms of end code points -/
def classEnd (tbl : List Nat) (c : Nat) : Nat :=
  match tbl.find? (fun e => decide (c ≤ e / 2048)) with
  | none => 29
  | some e => decN c e

theorem mergeCheck_correct : ∀ (fuel lo : Nat) (cov : List (Nat × Nat)) (tbl : List Nat),
    mergeCheck fuel lo cov tbl = true → ∀ c, lo ≤ c → ∀ b g,
    cov.find? (fun r => decide (c ≤ r.1)) = some (b, g) → classEnd tbl c = g := by
  intro fuel
  induction fuel with
  | zero => intro lo cov tbl h; simp [mergeCheck] at h
  | succ fuel ih =>
    intro lo cov tbl h c hc b g hf
    cases cov with
    | nil => simp at hf
    | cons r cov =>
      obtain ⟨b', g'⟩ := r
      cases tbl with
      | nil =>
        simp only [mergeCheck, Bool.and_eq_true, Nat.ble_eq, Nat.beq_eq] at h
        by_cases h1 : c ≤ b'
        · rw [List.find?_cons_of_pos (by simpa using h1)] at hf
          simp at hf
          simp only [classEnd, List.find?_nil]; omega
        · rw [List.find?_cons_of_neg (by simpa using h1)] at hf
          exact ih _ _ _ h.2 c (by omega) b g hf
      | cons e tbl =>
        simp only [mergeCheck, Bool.and_eq_true, Nat.ble_eq] at h
        obtain ⟨⟨hl1, hl2⟩, h⟩ := h
        by_cases hce : c ≤ e / 2048
        · have hcl : classEnd (e :: tbl) c = decN c e := by
            unfold classEnd; rw [List.find?_cons_of_pos (by simpa using hce)]
          by_cases h1 : c ≤ b'
          · rw [List.find?_cons_of_pos (by simpa using h1)] at hf
            simp at hf
            rw [hcl, ← hf.2]
            split at h
            · simp only [Bool.and_eq_true] at h; exact segOK_correct h.1 c hc h1
            · split at h
              · simp only [Bool.and_eq_true] at h; exact segOK_correct h.1 c hc h1
              · simp only [Bool.and_eq_true] at h; exact segOK_correct h.1 c hc hce
          · rw [List.find?_cons_of_neg (by simpa using h1)] at hf
            rw [if_pos (by omega)] at h
            simp only [Bool.and_eq_true] at h
            exact ih _ _ _ h.2 c (by omega) b g hf
        · have hcl : classEnd (e :: tbl) c = classEnd tbl c := by
            unfold classEnd; rw [List.find?_cons_of_neg (by simpa using hce)]
          rw [hcl]
          split at h
          · simp only [Bool.and_eq_true] at h
            have h2 : ¬ c ≤ b' := by omega
            rw [List.find?_cons_of_neg (by simpa using h2)] at hf
            rw [← hcl]
            exact ih _ _ _ h.2 c (by omega) b g hf
          · split at h
            · simp only [Bool.and_eq_true] at h
              have h2 : ¬ c ≤ b' := by omega
              rw [List.find?_cons_of_neg (by simpa using h2)] at hf
              exact ih _ _ _ h.2 c (by omega) b g hf
            · simp only [Bool.and_eq_true] at h
              exact ih _ _ _ h.2 c (by omega) b g hf

theorem rows_ok : rowsOK 0 UD_RANGES = true := by decide +kernel
theorem merge_ok : mergeCheck 10000 0 (coverOf 0 UD_RANGES) COMPLETE_CHAR_CLASSES = true := by decide +kernel
theorem ascii_ok : (List.range 128).all (fun c =>
    Nat.beq (ASCII_CHAR_CLASSES.getD c 0) (ownCategoryIn UD_RANGES c)) = true := by decide +kernel

/-- The table lookup agrees with the lines of UnicodeData for every value below 2^21. -/
theorem charClassShift_own (c : Char32) (h : c.toNat ≤ 0x1FFFFF) :
    (charClassShift c).toNat = ownCategoryIn UD_RANGES c.toNat := by
  by_cases h1 : c.toNat < 128
  · rw [(charClassShift_ascii c h1).1]
    exact Nat.eq_of_beq_eq_true (List.all_eq_true.mp ascii_ok c.toNat (by simpa using h1))
  · rw [charClassShift_table c (by omega), Nat.mod_eq_of_lt (by omega)]
    obtain ⟨b, hb⟩ := cover_correct UD_RANGES 0 c.toNat rows_ok (by omega) h
    have := mergeCheck_correct _ _ _ _ merge_ok c.toNat (by omega) _ _ hb
    rw [← this]
    unfold classLin classEnd
    have : (fun e : Nat => decide (c.toNat * 2048 ≤ e)) = (fun e => decide (c.toNat ≤ e / 2048)) := by
      funext e; congr 1; apply propext; omega
    rw [this]

/-! ### Relation to the specification -/

theorem rows_before {rows : List (Nat × Nat × Nat × Nat)} : ∀ {pos : Nat}, rowsOK pos rows = true →
    ∀ r ∈ rows, pos ≤ r.1 ∧ r.1 ≤ r.2.1 := by
  induction rows with
  | nil => intro _ _ r hr; cases hr
  | cons r rows ih =>
    obtain ⟨f, l, g, k⟩ := r
    intro pos h1 r hr
    simp only [rowsOK, Bool.and_eq_true, Nat.ble_eq] at h1
    rcases List.mem_cons.mp hr with rfl | hr
    · exact ⟨h1.1.1, h1.1.2⟩
    · have := ih h1.2 r hr; omega

/-- the rows are disjoint: the search finds the row that contains the code point -/
theorem find_row {rows : List (Nat × Nat × Nat × Nat)} : ∀ {pos : Nat}, rowsOK pos rows = true →
    ∀ r ∈ rows, ∀ c, r.1 ≤ c → c ≤ r.2.1 →
    rows.find? (fun r => decide (r.1 ≤ c ∧ c ≤ r.2.1)) = some r := by
  induction rows with
  | nil => intro _ _ r hr; cases hr
  | cons r0 rows ih =>
    obtain ⟨f, l, g, k⟩ := r0
    intro pos h1 r hr c hc1 hc2
    simp only [rowsOK, Bool.and_eq_true, Nat.ble_eq] at h1
    rcases List.mem_cons.mp hr with rfl | hr
    · rw [List.find?_cons_of_pos (by simp only [decide_eq_true_eq]; exact ⟨hc1, hc2⟩)]
    · have := rows_before h1.2 r hr
      rw [List.find?_cons_of_neg (by simp only [decide_eq_true_eq]; omega)]
      exact ih h1.2 r hr c hc1 hc2

theorem ideo_rows : UD_RANGES.all (fun r => !isIdeo r.1 || ideographBlocks.contains (r.1, r.2.1)) = true := by
  decide +kernel

theorem ideo_in_rows : ideographBlocks.all (fun r => UD_RANGES.contains (r.1, r.2, 4, 1)) = true := by
  decide +kernel

theorem own_eq_general {c : Nat} (h : ¬ InsideIdeographBlock c) :
    ownCategoryIn UD_RANGES c = generalCategory c := by
  unfold ownCategoryIn generalCategory
  generalize hf : UD_RANGES.find? _ = o
  match o with
  | none => rfl
  | some (f, l, g, k) =>
    simp only
    split
    · rfl
    · rename_i hn
      exfalso
      have hm := List.mem_of_find?_eq_some hf
      have hp := List.find?_some hf
      simp only [decide_eq_true_eq] at hp
      have := List.all_eq_true.mp ideo_rows _ hm
      simp only [Bool.or_eq_true, Bool.not_eq_true', List.contains_eq_mem, decide_eq_true_eq] at this
      rcases this with h1 | h1
      · exact hn (.inl h1)
      · exact h ⟨_, h1, by simp only; omega⟩

theorem own_inside {c : Nat} (h : InsideIdeographBlock c) :
    ownCategoryIn UD_RANGES c = 29 ∧ generalCategory c = 4 := by
  obtain ⟨r, hr, h1, h2⟩ := h
  have hm := List.all_eq_true.mp ideo_in_rows r hr
  simp only [List.contains_eq_mem, decide_eq_true_eq] at hm
  have hf := find_row rows_ok _ hm c (by simp only; omega) (by simp only; omega)
  have hi : isIdeo r.1 = true := by
    unfold isIdeo; rw [List.any_eq_true]; exact ⟨r, hr, by simp⟩
  unfold ownCategoryIn generalCategory
  rw [hf]
  simp only
  refine ⟨?_, trivial⟩
  rw [if_neg]
  rintro (h | h | h)
  · rw [hi] at h; cases h
  · omega
  · omega

end Ystring
