import Verif.Proofs.TitleDecompose
import Verif.Props.CaseDecompose
/-
Property theorems C128: title case before and after decomposition.
-/
namespace Ystring
open Spec

/-! ### Title case of lists of code points -/

/-- `n` is a letter -/
def lt (n : Nat) : Bool := isLetter (UInt32.ofNat n)

/-- the title case of one code point -/
def tseq (pre : Bool) (c : Nat) : List Nat :=
  if lt c then (if pre then [simpleLower c] else if c = 0xDF then [0x53, 0x73] else [simpleTitle c]) else [c]

def tnats : Bool → List Nat → List Nat
  | _, [] => []
  | pre, c :: cs => tseq pre c ++ tnats (lt c) cs

/-- the state after a list -/
def tend : Bool → List Nat → Bool
  | pre, [] => pre
  | _, c :: cs => tend (lt c) cs

theorem tnats_append (pre : Bool) (as bs : List Nat) : tnats pre (as ++ bs) = tnats pre as ++ tnats (tend pre as) bs := by
  induction as generalizing pre with
  | nil => rfl
  | cons a as ih => simp only [List.cons_append, tnats, tend, ih, List.append_assoc]

theorem lt_toNat (c : Char32) : lt c.toNat = isLetter c := by rw [lt, UInt32.ofNat_toNat]

theorem titleText_utf8 (pre : Bool) (cs : List Char32) : titleText isLetter pre cs = utf8 (tnats pre (cs.map UInt32.toNat)) := by
  induction cs generalizing pre with
  | nil => rfl
  | cons c cs ih =>
    unfold titleText
    rw [List.map_cons, tnats, tseq, lt_toNat]
    have ha : ∀ as bs : List Nat, utf8 (as ++ bs) = utf8 as ++ utf8 bs := fun as bs => List.flatMap_append
    have hu : ∀ n, utf8 [n] = rfcEncode n := by intro n; simp [utf8]
    rw [ha, ← ih]
    cases isLetter c with
    | false => simp only [Bool.false_eq_true, if_false, hu]; 
    | true =>
      simp only [if_true]
      cases pre with
      | true => simp only [if_true, hu]
      | false =>
        simp only [Bool.false_eq_true, if_false]
        split
        · rfl
        · rw [hu]

theorem simpleTitle_le {c : Nat} (h : c ≤ 0x10FFFF) : simpleTitle c ≤ 0x10FFFF := by
  have := (C52_range (UInt32.ofNat c)).2.2.mpr (by rw [toNat_ofNat32 (by omega)]; exact h)
  rwa [C52_to_title, toNat_ofNat32 (by omega)] at this

theorem tseq_le {pre : Bool} {c : Nat} (h : c ≤ 0x10FFFF) : ∀ x ∈ tseq pre c, x ≤ 0x10FFFF := by
  unfold tseq
  split
  · split
    · simpa using simpleLower_le h
    · split
      · simp
      · simpa using simpleTitle_le h
  · simpa using h

theorem tnats_le {pre : Bool} {ns : List Nat} (h : ∀ c ∈ ns, c ≤ 0x10FFFF) : ∀ x ∈ tnats pre ns, x ≤ 0x10FFFF := by
  induction ns generalizing pre with
  | nil => intro x hx; cases hx
  | cons c cs ih =>
    intro x hx
    cases List.mem_append.mp hx with
    | inl hx => exact tseq_le (h c (by simp)) x hx
    | inr hx => exact ih (fun d hd => h d (by simp [hd])) x hx

/-! ### Chains and title case -/

theorem samePiece_eq {x y : Option Bool} (h : samePiece x y = true) : ∃ v, x = some v ∧ y = some v := by
  cases x with
  | none => cases h
  | some v => cases y with
    | none => cases h
    | some w => exact ⟨v, rfl, by simp only [samePiece, beq_iff_eq] at h; rw [h]⟩

theorem isPiece_eq {x : Option Bool} {v : Bool} (h : isPiece x v = true) : x = some v := by
  cases x with
  | none => cases h
  | some w => simp only [isPiece, beq_iff_eq] at h; rw [h]

theorem facts_16D67 : simpleLower 0x16D67 = 0x16D67 ∧ simpleTitle 0x16D67 = 0x16D67 := by decide +kernel

/-- letters in a pair -/
structure TitlePair (c b m : Nat) : Prop where
  base : lt b = lt c
  mark : ∀ pre, tseq pre m = [m]
  rest : lt c = false → lt m = false
  low : simpleLower m = m

theorem titlePair {c b m : Nat} (h : pairOf c = some (b, m)) : TitlePair c b m := by
  have := List.all_eq_true.mp pairs_letters _ (pairOf_mem h)
  simp only [Bool.and_eq_true, Bool.or_eq_true, Nat.beq_eq] at this
  obtain ⟨⟨h1, h2⟩, h3⟩ := this
  obtain ⟨v, e1, e2⟩ := samePiece_eq h1
  have hb : lt c = v := titlePieces_correct e1
  have hb' : lt b = v := titlePieces_correct e2
  refine ⟨by rw [hb, hb'], ?_, ?_, by rw [lowerGroups_eq]; exact h3⟩
  · intro pre
    cases h2 with
    | inl h2 =>
      have : lt m = false := titlePieces_correct (isPiece_eq h2)
      rw [tseq, this]; rfl
    | inr h2 =>
      rw [h2.1, tseq, facts_16D67.1, facts_16D67.2]
      split <;> try rfl
      split <;> rfl
  · intro hf
    cases h2 with
    | inl h2 => exact titlePieces_correct (isPiece_eq h2)
    | inr h2 =>
      have : lt c = true := titlePieces_correct (isPiece_eq h2.2)
      rw [hf] at this
      cases this

/-- the marks of a chain -/
theorem tnats_marks (pre : Bool) {ms : List Nat} (h : ∀ m ∈ ms, ∀ pre, tseq pre m = [m]) : tnats pre ms = ms := by
  induction ms generalizing pre with
  | nil => rfl
  | cons m ms ih =>
    rw [tnats, h m (by simp), ih _ (fun x hx => h x (by simp [hx]))]
    rfl

/-- what a chain looks like -/
theorem chain_shape (c : Nat) : ∃ b ms, chainOf c = b :: ms ∧ lt b = lt c ∧ (∀ m ∈ ms, ∀ pre, tseq pre m = [m]) ∧
    (∀ m ∈ ms, simpleLower m = m) := by
  have hs := chainOf_spec c
  generalize chainOf c = l at hs
  cases hs with
  | d0 _ => exact ⟨c, [], rfl, rfl, by simp, by simp⟩
  | @d1 b m h1 _ =>
    have f := titlePair h1
    exact ⟨b, [m], rfl, f.base, by simpa using f.mark, by simpa using f.low⟩
  | @d2 b m b2 m2 h1 h2 _ =>
    have f := titlePair h1
    have f2 := titlePair h2
    refine ⟨b2, [m2, m], rfl, f2.base.trans f.base, ?_, ?_⟩
    · intro x hx; simp at hx; rcases hx with rfl | rfl
      · exact f2.mark
      · exact f.mark
    · intro x hx; simp at hx; rcases hx with rfl | rfl
      · exact f2.low
      · exact f.low
  | @d3 b m b2 m2 b3 m3 h1 h2 h3 _ =>
    have f := titlePair h1
    have f2 := titlePair h2
    have f3 := titlePair h3
    refine ⟨b3, [m3, m2, m], rfl, f3.base.trans (f2.base.trans f.base), ?_, ?_⟩
    · intro x hx; simp at hx; rcases hx with rfl | rfl | rfl
      · exact f3.mark
      · exact f2.mark
      · exact f.mark
    · intro x hx; simp at hx; rcases hx with rfl | rfl | rfl
      · exact f3.low
      · exact f2.low
      · exact f.low

/-- the state after a decomposed code point -/
def lastL (c : Nat) : Bool := match pairOf c with
  | none => lt c
  | some (_, m) => lt m

theorem chain_end (pre : Bool) (c : Nat) : tend pre (chainOf c) = lastL c := by
  unfold lastL
  have hs := chainOf_spec c
  generalize chainOf c = l at hs
  cases hs with
  | d0 h => rw [h]; rfl
  | d1 h _ => rw [h]; rfl
  | d2 h _ _ => rw [h]; rfl
  | d3 h _ _ _ => rw [h]; rfl

theorem lastL_letter {c : Nat} (h : lastL c = true) : lt c = true := by
  unfold lastL at h
  split at h
  · exact h
  · rename_i b m hp
    cases hc : lt c with
    | true => rfl
    | false => rw [(titlePair hp).rest hc] at h; cases h

/-- the letters for which decomposition and title case commute -/
theorem chain_title {c : Nat} (h : c ∉ TitleSplits) : ∀ {b ms}, chainOf c = b :: ms → chainOf (simpleTitle c) = simpleTitle b :: ms := by
  have hp : ∀ {c b m : Nat}, pairOf c = some (b, m) → c ∉ TitleSplits → b ∉ TitleSplits ∧ pairOf (simpleTitle c) = some (simpleTitle b, m) := by
    intro c b m hq hc
    have := List.all_eq_true.mp pairs_title _ (pairOf_mem hq)
    simp only [Bool.or_eq_true, inMask_iff, Bool.and_eq_true, Bool.not_eq_true'] at this
    have := this.resolve_left hc
    refine ⟨?_, ?_⟩
    · intro hb
      have h1 := this.1
      rw [(inMask_iff _ b).mpr hb] at h1
      cases h1
    · rw [titleGroups_eq, titleGroups_eq]; exact isPair_eq this.2
  have ha : ∀ {c : Nat}, pairOf c = none → pairOf (simpleTitle c) = none := by
    intro c hq
    cases lookup_cases UD_TITLE c with
    | inr hl => show pairOf (lookup UD_TITLE c) = none; rw [hl, hq]
    | inl hl =>
      have := List.all_eq_true.mp atoms_title _ hl
      simp only [Bool.or_eq_true, Bool.not_eq_true', (pairMask_iff c).mpr hq] at this
      exact (pairMask_iff _).mp (this.resolve_left (by simp))
  intro b ms e
  have hs := chainOf_spec c
  rw [e] at hs
  cases hs with
  | d0 h0 => exact chain_atom (ha h0)
  | d1 h1 h0 =>
    obtain ⟨a1, a2⟩ := hp h1 h
    exact ((Chain4.d1 a2 (ha h0)).unique).symm
  | d2 h1 h2 h0 =>
    obtain ⟨a1, a2⟩ := hp h1 h
    obtain ⟨b1, b2⟩ := hp h2 a1
    exact ((Chain4.d2 a2 b2 (ha h0)).unique).symm
  | d3 h1 h2 h3 h0 =>
    obtain ⟨a1, a2⟩ := hp h1 h
    obtain ⟨b1, b2⟩ := hp h2 a1
    obtain ⟨c1, c2⟩ := hp h3 b1
    exact ((Chain4.d3 a2 b2 c2 (ha h0)).unique).symm

theorem same_base {c : Nat} (h : c ∉ TitleSplits) {b : Nat} {ms : List Nat} (e : chainOf c = b :: ms) (hb : simpleLower b = simpleTitle b) :
    simpleLower c = simpleTitle c := by
  have hp : ∀ {c b m : Nat}, pairOf c = some (b, m) → c ∉ TitleSplits → b ∉ TitleSplits ∧
      (simpleLower b = simpleTitle b → simpleLower c = simpleTitle c) := by
    intro c b m hq hc
    have h1 := List.all_eq_true.mp pairs_title _ (pairOf_mem hq)
    simp only [Bool.or_eq_true, inMask_iff, Bool.and_eq_true, Bool.not_eq_true'] at h1
    have h1 := h1.resolve_left hc
    refine ⟨?_, ?_⟩
    · intro hb
      have h1 := h1.1
      rw [(inMask_iff _ b).mpr hb] at h1
      cases h1
    · intro hb
      have h2 := List.all_eq_true.mp pairs_same _ (pairOf_mem hq)
      simp only [Bool.or_eq_true, inMask_iff, Bool.not_eq_true', Nat.beq_eq, ← Bool.not_eq_true, ← lowerGroups_eq, ← titleGroups_eq] at h2
      cases h2 with
      | inl h2 => cases h2 with
        | inl h2 => exact absurd h2 hc
        | inr h2 => exact absurd hb h2
      | inr h2 => exact h2
  have hs := chainOf_spec c
  rw [e] at hs
  cases hs with
  | d0 _ => exact hb
  | d1 h1 _ => exact (hp h1 h).2 hb
  | d2 h1 h2 _ => exact (hp h1 h).2 ((hp h2 (hp h1 h).1).2 hb)
  | d3 h1 h2 h3 _ => exact (hp h1 h).2 ((hp h2 (hp h1 h).1).2 ((hp h3 (hp h2 (hp h1 h).1).1).2 hb))

/-! ### Pieces -/

/-- title case, then decomposition, of one code point -/
def pieceP (pre : Bool) (c : Nat) : List Nat := (tseq pre c).flatMap chainOf
/-- decomposition, then title case, of one code point -/
def pieceQ (pre : Bool) (c : Nat) : List Nat := tnats pre (chainOf c)

def textP : Bool → List Nat → List Nat
  | _, [] => []
  | pre, c :: cs => pieceP pre c ++ textP (lt c) cs

def textQ : Bool → List Nat → List Nat
  | _, [] => []
  | pre, c :: cs => pieceQ pre c ++ textQ (lastL c) cs

theorem textP_eq (pre : Bool) (ns : List Nat) : (tnats pre ns).flatMap chainOf = textP pre ns := by
  induction ns generalizing pre with
  | nil => rfl
  | cons c cs ih => rw [tnats, List.flatMap_append, ih]; rfl

theorem textQ_eq (pre : Bool) (ns : List Nat) : tnats pre (ns.flatMap chainOf) = textQ pre ns := by
  induction ns generalizing pre with
  | nil => rfl
  | cons c cs ih => rw [List.flatMap_cons, tnats_append, chain_end, ih]; rfl

/-- the two orders agree at `c` -/
def OkAt (pre pre' : Bool) (c : Nat) : Prop := lt c = true →
  (pre = true → c ≠ 0x130 ∧ c ≠ 0x212B) ∧ (pre = false → c ∉ TitleSplits) ∧
  (pre = true ∧ pre' = false → c ≠ 0xDF ∧ c ∉ TitleSplits ∧ simpleLower c = simpleTitle c)

def OkText : Bool → Bool → List Nat → Prop
  | _, _, [] => True
  | pre, pre', c :: cs => OkAt pre pre' c ∧ OkText (lt c) (lastL c) cs

/-- code points that only one of the orders adds -/
def odd (n : Nat) : Bool := n == 0xE5 || n == 0x212B

/-- a weight -/
def weight (l : List Nat) : Nat := l.length + 2 * l.countP odd

theorem weight_append (as bs : List Nat) : weight (as ++ bs) = weight as + weight bs := by
  simp only [weight, List.length_append, List.countP_append]; omega

theorem lower_ne_212B (c : Nat) : simpleLower c ≠ 0x212B := by
  cases lookup_cases UD_LOWER c with
  | inl h =>
    have := List.all_eq_true.mp lower_212B _ h
    simp only [Bool.not_eq_true', ← Bool.not_eq_true, Nat.beq_eq] at this
    exact this
  | inr h =>
    intro e
    have : simpleLower c = c := h
    rw [this] at e
    rw [e, chain_212B.2.1] at this
    cases this

theorem chain_212B_mem {c : Nat} (h : 0x212B ∈ chainOf c) : c = 0x212B := by
  have hp : ∀ {c b m : Nat}, pairOf c = some (b, m) → b ≠ 0x212B ∧ m ≠ 0x212B := by
    intro c b m hq
    have := List.all_eq_true.mp pairs_212B _ (pairOf_mem hq)
    simp only [Bool.and_eq_true, Bool.not_eq_true', ← Bool.not_eq_true, Nat.beq_eq] at this
    exact ⟨this.1.2, this.2⟩
  have hs := chainOf_spec c
  generalize chainOf c = l at hs h
  cases hs with
  | d0 _ => exact (List.mem_singleton.mp h).symm
  | d1 h1 _ => have := hp h1; simp at h; omega
  | d2 h1 h2 _ => have := hp h1; have := hp h2; simp at h; omega
  | d3 h1 h2 h3 _ => have := hp h1; have := hp h2; have := hp h3; simp at h; omega

/-- decompositions have no odd code points -/
theorem weight_chain {c : Nat} (h : c ≠ 0x212B) : weight (chainOf c) = (chainOf c).length := by
  have : (chainOf c).countP odd = 0 := by
    rw [List.countP_eq_zero]
    intro x hx ho
    simp only [odd, Bool.or_eq_true, beq_iff_eq] at ho
    cases ho with
    | inl e => rw [e] at hx; exact dec_chain_E5 c hx
    | inr e => rw [e] at hx; exact h (chain_212B_mem hx)
  rw [weight, this]
  rfl

theorem le_weight (l : List Nat) : l.length ≤ weight l := Nat.le_add_right _ _

theorem letters_known : lt 0xDF = true ∧ lt 0x130 = true ∧ lt 0x212B = true ∧ lt 0x53 = true ∧ lt 0x49 = true ∧ lt 0x307 = false := by
  refine ⟨?_, ?_, ?_, ?_, ?_, ?_⟩ <;> exact titlePieces_correct (by decide +kernel)

theorem chars_known : simpleTitle 0x49 = 0x49 ∧ simpleTitle 0x212B = 0x212B ∧ simpleLower 0xDF = 0xDF ∧ chainOf 0x73 = [0x73] ∧
    0x130 ∉ TitleSplits ∧ 0x212B ∉ TitleSplits ∧ 0xDF ∉ TitleSplits := by decide +kernel

theorem splits {c : Nat} (h : c ∈ TitleSplits) {b : Nat} {ms : List Nat} (e : chainOf c = b :: ms) :
    simpleTitle c = c ∧ simpleLower c = c ∧ simpleTitle b ≠ b ∧ c ≠ 0x212B ∧ c ≠ 0x130 ∧ c ≠ 0xDF := by
  have := List.all_eq_true.mp titleSplits_facts _ h
  simp only [Bool.and_eq_true, Bool.not_eq_true', ← Bool.not_eq_true, Nat.beq_eq, e, chainHead] at this
  exact ⟨this.1.1, this.1.2, this.2, fun h' => chars_known.2.2.2.2.2.1 (h' ▸ h), fun h' => chars_known.2.2.2.2.1 (h' ▸ h),
    fun h' => chars_known.2.2.2.2.2.2 (h' ▸ h)⟩

/-- the ways a piece can come out -/
def PieceOutcome (pre pre' : Bool) (c : Nat) : Prop :=
  (OkAt pre pre' c ∧ pieceP pre c = pieceQ pre' c) ∨
  (¬ OkAt pre pre' c ∧ pieceP pre c ≠ pieceQ pre' c ∧ (weight (pieceP pre c) < weight (pieceQ pre' c) ∨
    ((pieceP pre c).length = (pieceQ pre' c).length ∧ weight (pieceP pre c) ≤ weight (pieceQ pre' c))))

theorem outcome_heads {pre pre' : Bool} {c x y : Nat} {ms : List Nat} (d : Nat) (hd : d ≠ 0x212B) (hP : pieceP pre c = chainOf d)
    (hP' : chainOf d = x :: ms) (hQ : pieceQ pre' c = y :: ms) (hxy : x ≠ y) (hok : ¬ OkAt pre pre' c) : PieceOutcome pre pre' c := by
  refine .inr ⟨hok, ?_, .inr ⟨?_, ?_⟩⟩
  · rw [hP, hP', hQ]
    intro e
    cases e
    exact hxy rfl
  · rw [hP, hP', hQ]; rfl
  · have h1 := weight_chain hd
    have h2 := le_weight (y :: ms)
    rw [hP, hQ, h1, hP']
    simpa using h2

theorem outcome_weight {pre pre' : Bool} {c : Nat} {p q : List Nat} (hP : pieceP pre c = p) (hQ : pieceQ pre' c = q)
    (hw : weight p < weight q) (hok : ¬ OkAt pre pre' c) : PieceOutcome pre pre' c := by
  refine .inr ⟨hok, ?_, .inl (by rw [hP, hQ]; exact hw)⟩
  rw [hP, hQ]
  intro e
  rw [e] at hw
  exact Nat.lt_irrefl _ hw

theorem pieceQ_letter {pre : Bool} {c b : Nat} {ms : List Nat} (hl : lt b = true) (hb : b ≠ 0xDF) (e : chainOf c = b :: ms)
    (hm : ∀ m ∈ ms, ∀ pre, tseq pre m = [m]) : pieceQ pre c = (if pre then simpleLower b else simpleTitle b) :: ms := by
  rw [pieceQ, e, tnats, tnats_marks _ hm, tseq, hl]
  cases pre with
  | true => rfl
  | false => simp only [if_true, Bool.false_eq_true, if_false, hb]; rfl

theorem outcome (pre pre' : Bool) (c : Nat) (hpre : pre' = true → pre = true) : PieceOutcome pre pre' c := by
  obtain ⟨b, ms, e, hl, hm, hlow⟩ := chain_shape c
  obtain ⟨l1, l2, l3, l4, l5, l6⟩ := letters_known
  obtain ⟨k1, k2, k3, k4, k5, k6, k7⟩ := chars_known
  cases hc : lt c with
  | false =>
    refine .inl ⟨fun h => (by rw [hc] at h; cases h), ?_⟩
    rw [pieceP, pieceQ, tseq, hc, e, tnats, tnats_marks _ hm, tseq, hl, hc]
    simp [e]
  | true =>
    have hlb : lt b = true := hl.trans hc
    have hms : ms.map simpleLower = ms := by
      refine Eq.trans (List.map_congr_left (g := id) ?_) (List.map_id _)
      exact hlow
    have hlo : c ≠ 0x130 → c ≠ 0x212B → chainOf (simpleLower c) = simpleLower b :: ms := by
      intro h1 h2
      rw [chain_lower ⟨h1, h2⟩, e, List.map_cons, hms]
    have hPt : pieceP true c = chainOf (simpleLower c) := by
      rw [pieceP, tseq, hc]; simp
    by_cases h0 : c = 0xDF
    · subst h0
      have hQf : pieceQ false 0xDF = [0x53, 0x73] := by
        rw [pieceQ, chain_DF.1, tnats, tseq, l1]; rfl
      cases pre with
      | false =>
        cases pre' with
        | true => cases hpre rfl
        | false =>
          refine .inl ⟨fun _ => ⟨fun h => (by cases h), fun _ => k7, fun h => (by cases h.1)⟩, ?_⟩
          rw [hQf, pieceP, tseq, l1]
          simp [k4, chain_DF.2.1]
      | true =>
        have hPt' : pieceP true 0xDF = [0xDF] := by rw [hPt, k3, chain_DF.1]
        cases pre' with
        | true =>
          refine .inl ⟨fun _ => ⟨fun _ => ⟨by decide, by decide⟩, fun h => (by cases h), fun h => (by cases h.2)⟩, ?_⟩
          rw [hPt', pieceQ, chain_DF.1, tnats, tseq, l1, k3]; rfl
        | false =>
          exact outcome_weight hPt' hQf (by decide) (fun h => ((h l1).2.2 ⟨rfl, rfl⟩).1 rfl)
    · have hb0 : b ≠ 0xDF := by
        intro h
        have := chain_no_DF h0
        rw [e, h] at this
        exact this (by simp)
      have hQ : ∀ p, pieceQ p c = (if p then simpleLower b else simpleTitle b) :: ms := fun p => pieceQ_letter hlb hb0 e hm
      have hPf : pieceP false c = chainOf (simpleTitle c) := by
        rw [pieceP, tseq, hc]; simp [h0]
      cases pre with
      | false =>
        cases pre' with
        | true => cases hpre rfl
        | false =>
          by_cases hs : c ∈ TitleSplits
          · obtain ⟨s1, s2, s3, s4, s5, s6⟩ := splits hs e
            rw [s1] at hPf
            exact outcome_heads c s4 hPf e (hQ false) (fun h => s3 h.symm) (fun h => (h hc).2.1 rfl hs)
          · refine .inl ⟨fun _ => ⟨fun h => (by cases h), fun _ => hs, fun h => (by cases h.1)⟩, ?_⟩
            rw [hPf, hQ, chain_title hs e]; rfl
      | true =>
        by_cases h1 : c = 0x130
        · subst h1
          rw [chain_130.1] at e
          cases e
          rw [chain_130.2.1, chain_130.2.2.2.2] at hPt
          have hok : ¬ OkAt true pre' 0x130 := fun h => ((h hc).1 rfl).1 rfl
          have := hQ pre'
          rw [chain_130.2.2.1, k1] at this
          refine outcome_weight hPt this ?_ hok
          cases pre' <;> decide
        · by_cases h2 : c = 0x212B
          · subst h2
            rw [chain_212B.1] at e
            cases e
            rw [chain_212B.2.1, chain_212B.2.2] at hPt
            have hok : ¬ OkAt true pre' 0x212B := fun h => ((h hc).1 rfl).2 rfl
            have := hQ pre'
            rw [chain_212B.2.1, k2] at this
            refine outcome_weight hPt this ?_ hok
            cases pre' <;> decide
          · have hlo := hlo h1 h2
            cases pre' with
            | true =>
              refine .inl ⟨fun _ => ⟨fun _ => ⟨h1, h2⟩, fun h => (by cases h), fun h => (by cases h.2)⟩, ?_⟩
              rw [hPt, hlo, hQ]; rfl
            | false =>
              by_cases hs : c ∈ TitleSplits
              · obtain ⟨s1, s2, s3, s4, s5, s6⟩ := splits hs e
                rw [s2] at hPt
                exact outcome_heads c s4 hPt e (hQ false) (fun h => s3 h.symm) (fun h => ((h hc).2.2 ⟨rfl, rfl⟩).2.1 hs)
              · by_cases hbe : simpleLower b = simpleTitle b
                · refine .inl ⟨fun _ => ⟨fun _ => ⟨h1, h2⟩, fun h => (by cases h), fun _ => ⟨h0, hs, same_base hs e hbe⟩⟩, ?_⟩
                  rw [hPt, hlo, hQ, hbe]; rfl
                · refine outcome_heads (simpleLower c) (lower_ne_212B c) hPt hlo (hQ false) hbe ?_
                  intro h
                  have := ((h hc).2.2 ⟨rfl, rfl⟩).2.2
                  have ht := chain_title hs e
                  rw [← this, hlo] at ht
                  exact hbe (List.cons.inj ht).1

theorem text_weight (pre pre' : Bool) (ns : List Nat) (hpre : pre' = true → pre = true) : weight (textP pre ns) ≤ weight (textQ pre' ns) := by
  induction ns generalizing pre pre' with
  | nil => exact Nat.le_refl _
  | cons c cs ih =>
    have h1 := ih (lt c) (lastL c) lastL_letter
    rw [textP, textQ, weight_append, weight_append]
    rcases outcome pre pre' c hpre with ⟨_, h2⟩ | ⟨_, _, h2 | ⟨_, h2⟩⟩
    · rw [h2]; omega
    · omega
    · omega

theorem text_iff (pre pre' : Bool) (ns : List Nat) (hpre : pre' = true → pre = true) : textP pre ns = textQ pre' ns ↔ OkText pre pre' ns := by
  induction ns generalizing pre pre' with
  | nil => exact ⟨fun _ => trivial, fun _ => rfl⟩
  | cons c cs ih =>
    have ih := ih (lt c) (lastL c) lastL_letter
    rw [textP, textQ, OkText]
    constructor
    · intro e
      rcases outcome pre pre' c hpre with ⟨h1, h2⟩ | ⟨_, hne, h2⟩
      · rw [h2] at e
        exact ⟨h1, ih.mp (List.append_cancel_left e)⟩
      · exfalso
        cases h2 with
        | inl h2 =>
          have := text_weight (lt c) (lastL c) cs lastL_letter
          have := congrArg weight e
          rw [weight_append, weight_append] at this
          omega
        | inr h2 => exact hne (List.append_inj e h2.1).1
    · intro ⟨h1, h2⟩
      rcases outcome pre pre' c hpre with ⟨_, h3⟩ | ⟨h3, _⟩
      · rw [h3, ih.mpr h2]
      · exact absurd h1 h3

/-! ### The theorem -/

theorem accented_lastL {p : Nat} (h : lt p = true) : Accented isLetter p ↔ lastL p = false := by
  unfold Accented lastL
  cases hp : pairOf p with
  | none =>
    simp only [h]
    constructor
    · intro ⟨b, m, e, _⟩; cases e
    · intro e; cases e
  | some q =>
    obtain ⟨b, m⟩ := q
    simp only
    constructor
    · intro ⟨b', m', e, h1⟩
      cases e
      exact h1
    · intro h1
      exact ⟨b, m, rfl, h1⟩

theorem okText_iff (prev : Option Char32) (pre pre' : Bool) (cs : List Char32)
    (hpre : pre = true ↔ ∃ p, prev = some p ∧ isLetter p = true)
    (hacc : (pre = true ∧ pre' = false) ↔ ∃ p, prev = some p ∧ isLetter p = true ∧ Accented isLetter p.toNat) :
    TitleOrder isLetter prev cs ↔ OkText pre pre' (cs.map UInt32.toNat) := by
  induction cs generalizing prev pre pre' with
  | nil => exact Iff.rfl
  | cons c cs ih =>
    rw [List.map_cons, OkText, TitleOrder]
    refine and_congr ?_ ?_
    · rw [OkAt, lt_toNat, ← hpre, ← hacc, Bool.not_eq_true]
    · refine ih (some c) (lt c.toNat) (lastL c.toNat) ?_ ?_
      · rw [lt_toNat]
        constructor
        · intro h; exact ⟨c, rfl, h⟩
        · intro ⟨p, e, h⟩; cases e; exact h
      · rw [lt_toNat]
        constructor
        · intro ⟨h, h2⟩
          exact ⟨c, rfl, h, (accented_lastL (by rw [lt_toNat]; exact h)).mpr h2⟩
        · intro ⟨p, e, h, h2⟩
          cases e
          exact ⟨h, (accented_lastL (by rw [lt_toNat]; exact h)).mp h2⟩

theorem tseq_three {pre : Bool} {c : Nat} (h : (chainOf c).length ≤ 3) : ∀ x ∈ tseq pre c, (chainOf x).length ≤ 3 := by
  intro x hx
  unfold tseq at hx
  split at hx
  · split at hx
    · rw [List.mem_singleton] at hx
      rw [hx]; exact chain_lower_le h
    · split at hx
      · simp only [List.mem_cons, List.not_mem_nil, or_false] at hx
        rcases hx with rfl | rfl
        · rw [chain_DF.2.1]; simp
        · rw [chars_known.2.2.2.1]; simp
      · rw [List.mem_singleton] at hx
        rw [hx]
        obtain ⟨b, ms, e, _⟩ := chain_shape c
        by_cases hs : c ∈ TitleSplits
        · rw [(splits hs e).1]; exact h
        · rw [chain_title hs e]
          rw [e] at h
          simpa using h
  · rw [List.mem_singleton] at hx
    rw [hx]; exact h

theorem tnats_three {pre : Bool} {ns : List Nat} (h : ∀ c ∈ ns, (chainOf c).length ≤ 3) : ∀ x ∈ tnats pre ns, (chainOf x).length ≤ 3 := by
  induction ns generalizing pre with
  | nil => intro x hx; cases hx
  | cons c cs ih =>
    intro x hx
    cases List.mem_append.mp hx with
    | inl hx => exact tseq_three (h c (by simp)) x hx
    | inr hx => exact ih (fun d hd => h d (by simp [hd])) x hx

/-- C128: for a text that to_decomposed and to_title accept, converting to title case and decomposing gives the same text in either order
exactly if the text is as described by `Spec.TitleOrder`. -/
theorem C128_title (s d t : Str) (cs : List Char32) (g : Nat) (hc : toUtf32 s = .ok cs) (hd : toDecomposed s (g + 1) = .ok d)
    (ht : toTitle s = .ok t) :
    ∃ a b, toTitle d = .ok a ∧ toDecomposed t (g + 1) = .ok b ∧ (a = b ↔ TitleOrder isLetter none cs) := by
  obtain ⟨us, hu, rfl, h3, rfl⟩ := toDecomposed_ok hd
  have hcs : valsOf us = cs := hu.decodes.unique (toUtf32_iff.mp hc)
  have hin : InUnicode cs := by
    cases Classical.em (∃ cs, Decodes (bytesOf us) cs ∧ InUnicode cs) with
    | inl h =>
      obtain ⟨ds, h1, h2⟩ := h
      rwa [h1.unique (toUtf32_iff.mp hc)] at h2
    | inr h => rw [(C53_to_title _).2 h] at ht; cases ht
  subst hcs
  have ht' := (C53_to_title (bytesOf us)).1 _ hu.decodes hin
  rw [ht] at ht'
  cases ht'
  have hn : (valsOf us).map UInt32.toNat = us.map (fun v => v.2.toNat) := by simp [valsOf, Function.comp_def]
  have hn2 : (valsOf (us.flatMap decUnits)).map UInt32.toNat = ((valsOf us).map UInt32.toNat).flatMap chainOf := by
    rw [hn, ← dec_nats]; simp only [valsOf, List.map_map, Function.comp_def]
  have hord := okText_iff none false false (valsOf us) (by simp) (by simp)
  generalize hns : (valsOf us).map UInt32.toNat = ns at hn hn2 hord
  have hle : ∀ c ∈ ns, c ≤ 0x10FFFF := by
    intro c hc'
    rw [← hns] at hc'
    obtain ⟨x, hx, rfl⟩ := List.mem_map.mp hc'
    exact hin x hx
  have h3' : ∀ c ∈ ns, (chainOf c).length ≤ 3 := by
    intro c hc'
    rw [hn] at hc'
    obtain ⟨x, hx, rfl⟩ := List.mem_map.mp hc'
    exact h3 x hx
  have hdle : ∀ c ∈ ns.flatMap chainOf, c ≤ 0x10FFFF := by
    intro c hc'
    obtain ⟨x, hx, hx2⟩ := List.mem_flatMap.mp hc'
    exact chain_le (hle x hx) c hx2
  have hd2 := (C53_to_title (bytesOf (us.flatMap decUnits))).1 _ (decUnits_all us hu).1.decodes (by
    intro c hc'
    apply hdle
    rw [← hn2]
    exact List.mem_map_of_mem hc')
  rw [titleText_utf8, hn2] at hd2
  have hb := dec_utf8 (ns := tnats false ns) (tnats_le hle) (tnats_three h3') g
  refine ⟨_, _, hd2, by rw [titleText_utf8, hns]; exact hb, ?_⟩
  rw [hord, ← text_iff false false ns (fun h => h), ← textP_eq, ← textQ_eq]
  refine ⟨fun e => (utf8_inj (tnats_le hdle) ?_ e).symm, fun e => by rw [e]⟩
  intro c hc'
  obtain ⟨x, hx, hx2⟩ := List.mem_flatMap.mp hc'
  exact chain_le (tnats_le hle x hx) c hx2

/-- C128: in particular, if an accented letter is followed by a letter with different lower and title case, the two orders differ. -/
theorem C128_accent (s d t : Str) (as bs : List Char32) (p c : Char32) (g : Nat) (hc : toUtf32 s = .ok (as ++ p :: c :: bs))
    (hd : toDecomposed s (g + 1) = .ok d) (ht : toTitle s = .ok t) (hp : isLetter p = true) (hpa : Accented isLetter p.toNat)
    (hcl : isLetter c = true) (hcc : simpleLower c.toNat ≠ simpleTitle c.toNat) : toTitle d ≠ toDecomposed t (g + 1) := by
  obtain ⟨a, b, h1, h2, h3⟩ := C128_title s d t _ g hc hd ht
  rw [h1, h2]
  intro e
  cases e
  have h3 := h3.mp rfl
  have : ∀ (as : List Char32) (prev : Option Char32), ¬ TitleOrder isLetter prev (as ++ p :: c :: bs) := by
    intro as
    induction as with
    | nil =>
      intro prev h
      exact hcc ((h.2.1 hcl).2.2 ⟨p, rfl, hp, hpa⟩).2.2
    | cons x as ih => intro prev h; exact ih _ h.2
  exact this as none h3

/-- "élan" and "éLan": the letter behind the accent becomes a capital in the decomposed text -/
example : toUtf32 [0xC3, 0xA9, 0x6C] = .ok [0xE9, 0x6C] ∧ toDecomposed [0xC3, 0xA9, 0x6C] 1 = .ok [0x65, 0xCC, 0x81, 0x6C] ∧
    toTitle [0xC3, 0xA9, 0x6C] = .ok [0xC3, 0x89, 0x6C] ∧ toTitle [0x65, 0xCC, 0x81, 0x6C] = .ok [0x45, 0xCC, 0x81, 0x4C] ∧
    toDecomposed [0xC3, 0x89, 0x6C] 1 = .ok [0x45, 0xCC, 0x81, 0x6C] := by decide +kernel

example : isLetter 0xE9 = true ∧ isLetter 0x6C = true ∧ isLetter 0x301 = false ∧ pairOf 0xE9 = some (0x65, 0x301) ∧
    simpleLower 0x6C ≠ simpleTitle 0x6C := by decide +kernel

/-- "lé" -/
example : TitleOrder isLetter none [0x6C, 0xE9] := by
  refine ⟨fun _ => ⟨fun h => ?_, fun _ => by decide, fun h => ?_⟩, fun _ => ⟨fun _ => by decide, fun h => ?_, fun h => ?_⟩, trivial⟩
  · obtain ⟨_, h, _⟩ := h; cases h
  · obtain ⟨_, h, _⟩ := h; cases h
  · exact absurd ⟨0x6C, rfl, by decide +kernel⟩ h
  · obtain ⟨q, h, _, b, m, h2, _⟩ := h
    cases h
    have : pairOf 0x6C = none := by decide +kernel
    rw [show (0x6C : Char32).toNat = 0x6C from rfl, this] at h2
    cases h2

end Ystring
