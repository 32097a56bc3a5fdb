import Verif.Props.NormalForm
import Verif.Props.Composition
/-
C55, continued: to_composed and canonical equivalence.
-/
namespace Ystring
open Spec

theorem insMark_length (a : Nat) (l : List Nat) : (insMark a l).length = l.length + 1 := by
  induction l with
  | nil => rfl
  | cons b l ih =>
    unfold insMark
    split
    · simp [ih]
    · rfl

theorem sortMarks_length (l : List Nat) : (sortMarks l).length = l.length := by
  induction l with
  | nil => rfl
  | cons a l ih => simp only [sortMarks, insMark_length, ih, List.length_cons]

theorem dropLost_canon (ps : List (Bool × Nat)) : ∀ (pc : Bool) (ds es : List Nat), CanonSeq (ps.map (·.2)) ds →
    CanonSeq (dropLost pc ps) es → es.length ≤ ds.length ∧ (es.length = ds.length → dropLost pc ps = ps.map (·.2)) := by
  induction ps with
  | nil =>
    intro pc ds es h1 h2
    cases h1
    cases h2
    exact ⟨Nat.le_refl _, fun _ => rfl⟩
  | cons p ps ih =>
    obtain ⟨f, c⟩ := p
    intro pc ds es h1 h2
    simp only [List.map_cons] at h1 ⊢
    cases h1 with
    | @cons _ l _ ds hc h1 =>
    have hl : 0 < l.length := List.length_pos_iff.mpr (canon_ne_nil hc)
    have keep : ∀ (b : Bool) (es : List Nat), CanonSeq (c :: dropLost b ps) es →
        es.length ≤ (l ++ ds).length ∧ (es.length = (l ++ ds).length → c :: dropLost b ps = c :: ps.map (·.2)) := by
      intro b es h2
      cases h2 with
      | @cons _ l' _ es hc' h2 =>
        have : l' = l := hc'.unique hc
        subst this
        obtain ⟨h3, h4⟩ := ih b ds es h1 h2
        simp only [List.length_append]
        exact ⟨by omega, fun e => by rw [h4 (by omega)]⟩
    cases f with
    | true => exact keep true es h2
    | false =>
      simp only [dropLost] at h2 ⊢
      split at h2
      · rename_i hp
        rw [if_pos hp]
        obtain ⟨h3, h4⟩ := ih false ds es h1 h2
        simp only [List.length_append]
        exact ⟨by omega, fun e => by omega⟩
      · rename_i hp
        rw [if_neg hp]
        exact keep false es h2

/-- C55: where to_composed returns, the result is canonically equivalent to the text if and only if no code point is lost. -/
theorem C55_equivalent_iff (cs : List Nat) (h : ∀ c ∈ cs, c < 0x100000) (hn : NoOverrun cs) :
    ∃ rs, toComposed (utf8 cs) = .ok (utf8 rs) ∧ (CanonEquivalent cs rs ↔ NothingLost cs) := by
  refine ⟨_, (C55_exact cs h).1 hn, ?_⟩
  obtain ⟨ds, hd⟩ := canonSeq_total cs
  have hfull : CanonSeq ((composePieces libComposite cs).map (·.2)) ds := by
    cases hd with
    | nil => exact .nil
    | cons hc hd => exact composeRuns_canon _ (fun b m c hh => (libComposite_facts hh).2) _ _ _ _ _ hc hd
  constructor
  · rintro ⟨fs, h1, h2⟩
    obtain ⟨es, he⟩ := canonSeq_total (dropLost false (composePieces libComposite cs))
    have e1 := (nfd_iff hd).mp h1
    have e2 := (nfd_iff he).mp h2
    have hlen : es.length = ds.length := by
      rw [← sortMarks_length es, ← sortMarks_length ds, ← e1, ← e2]
    exact (dropLost_canon _ false ds es hfull he).2 hlen
  · intro hl
    unfold NothingLost at hl
    rw [hl]
    exact ⟨sortMarks ds, (nfd_iff hd).mpr rfl, (nfd_iff hfull).mpr rfl⟩

/-- C55: in particular every text for which to_composed returns and keeps the number of code points after decomposition is kept up to
canonical equivalence; a text with a lost code point never is. -/
example : ∃ rs, toComposed (utf8 [0x65, 0x301, 0x78]) = .ok (utf8 rs) ∧ ¬ CanonEquivalent [0x65, 0x301, 0x78] rs := by
  obtain ⟨rs, h1, h2⟩ := C55_equivalent_iff [0x65, 0x301, 0x78] (by decide)
    (by intro p a b q e
        have : a ∈ [0x65, 0x301, 0x78] := by rw [e]; simp
        simp only [List.mem_cons, List.not_mem_nil, or_false] at this
        omega)
  exact ⟨rs, h1, fun h => absurd (h2.mp h) (by unfold NothingLost; decide +kernel)⟩

end Ystring
