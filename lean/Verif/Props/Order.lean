import Verif.Props.Basics
/-
Property theorem C65: comparing UTF-8 strings byte by byte, as `std::string` does (`char_traits<char>::compare` compares
unsigned bytes), orders them by code points.
-/
namespace Ystring
open Spec

theorem byte_lt {a b : Nat} (hb : b < 256) (h : a < b) : UInt8.ofNat a < UInt8.ofNat b := by
  rw [UInt8.lt_iff_toNat_lt, UInt8.toNat_ofNat', UInt8.toNat_ofNat', Nat.mod_eq_of_lt (by omega), Nat.mod_eq_of_lt (by omega)]
  exact h

theorem cons_lt_of {a b : Nat} {x y : Str} (hb : b < 256) (h : a < b ∨ (a = b ∧ x < y)) :
    UInt8.ofNat a :: x < UInt8.ofNat b :: y := by
  rw [List.cons_lt_cons_iff]
  rcases h with h | ⟨h, h'⟩
  · exact .inl (byte_lt hb h)
  · exact .inr ⟨by rw [h], h'⟩

theorem rfcEncode_lt {c d : Nat} (hd : d ≤ 0x10FFFF) (h : c < d) (x y : Str) : rfcEncode c ++ x < rfcEncode d ++ y := by
  have step : ∀ {a b : Nat} {x y : Str}, b < 256 → a ≤ b → (a = b → x < y) → UInt8.ofNat a :: x < UInt8.ofNat b :: y := by
    intro a b x y hb hab hxy
    rcases Nat.lt_or_eq_of_le hab with h | h
    · exact cons_lt_of hb (.inl h)
    · exact cons_lt_of hb (.inr ⟨h, hxy h⟩)
  unfold rfcEncode
  by_cases h1 : d < 0x80
  · rw [if_pos (by omega), if_pos h1]
    exact step (by omega) (by omega) fun e => by omega
  rw [if_neg h1]
  by_cases h2 : d < 0x800
  · rw [if_pos h2]
    by_cases k1 : c < 0x80
    · rw [if_pos k1]; exact step (by omega) (by omega) fun e => by omega
    rw [if_neg k1, if_pos (by omega)]
    exact step (by omega) (by omega) fun e => step (by omega) (by omega) fun e => by omega
  rw [if_neg h2]
  by_cases h3 : d < 0x10000
  · rw [if_pos h3]
    by_cases k1 : c < 0x80
    · rw [if_pos k1]; exact step (by omega) (by omega) fun e => by omega
    rw [if_neg k1]
    by_cases k2 : c < 0x800
    · rw [if_pos k2]; exact step (by omega) (by omega) fun e => by omega
    rw [if_neg k2, if_pos (by omega)]
    exact step (by omega) (by omega) fun e => step (by omega) (by omega) fun e => step (by omega) (by omega) fun e => by omega
  rw [if_neg h3]
  by_cases k1 : c < 0x80
  · rw [if_pos k1]; exact step (by omega) (by omega) fun e => by omega
  rw [if_neg k1]
  by_cases k2 : c < 0x800
  · rw [if_pos k2]; exact step (by omega) (by omega) fun e => by omega
  rw [if_neg k2]
  by_cases k3 : c < 0x10000
  · rw [if_pos k3]; exact step (by omega) (by omega) fun e => by omega
  rw [if_neg k3]
  exact step (by omega) (by omega) fun e => step (by omega) (by omega) fun e => step (by omega) (by omega) fun e =>
    step (by omega) (by omega) fun e => by omega

theorem encode_lt_of {cs ds : List Nat} (hd : ∀ d ∈ ds, d ≤ 0x10FFFF) (h : cs < ds) :
    cs.flatMap rfcEncode < ds.flatMap rfcEncode := by
  induction ds generalizing cs with
  | nil => exact absurd h (List.not_lt_nil _)
  | cons d ds ih =>
    cases cs with
    | nil =>
      have : rfcEncode d ≠ [] := by unfold rfcEncode; (repeat' split) <;> exact List.cons_ne_nil _ _
      rw [List.flatMap_cons]
      cases e : rfcEncode d with
      | nil => exact absurd e this
      | cons b t => exact List.nil_lt_cons _ _
    | cons c cs =>
      rw [List.flatMap_cons, List.flatMap_cons]
      rcases List.cons_lt_cons_iff.mp h with h | ⟨rfl, h'⟩
      · exact rfcEncode_lt (hd d List.mem_cons_self) h _ _
      · have := ih (fun x hx => hd x (List.mem_cons_of_mem _ hx)) h'
        generalize rfcEncode c = p
        induction p with
        | nil => exact this
        | cons b p ihp => exact List.cons_lt_cons_iff.mpr (.inr ⟨rfl, ihp⟩)

theorem encode_lt_iff {cs ds : List Nat} (hc : ∀ c ∈ cs, c ≤ 0x10FFFF) (hd : ∀ d ∈ ds, d ≤ 0x10FFFF) :
    cs.flatMap rfcEncode < ds.flatMap rfcEncode ↔ cs < ds := by
  refine ⟨fun h => ?_, encode_lt_of hd⟩
  by_cases e : cs = ds
  · rw [e] at h; exact absurd h (List.lt_irrefl _)
  · by_cases h' : cs < ds
    · exact h'
    · by_cases h'' : ds < cs
      · exact absurd h (List.lt_asymm (encode_lt_of hc h''))
      · exact absurd (List.le_antisymm (List.not_lt.mp h'') (List.not_lt.mp h')) e

theorem fromUtf32_rfc {cs : List Char32} (h : ∀ c ∈ cs, c.toNat ≤ 0x10FFFF) :
    fromUtf32 cs = (cs.map UInt32.toNat).flatMap rfcEncode := by
  rw [fromUtf32_eq]
  induction cs with
  | nil => rfl
  | cons c cs ih =>
    rw [List.map_cons, List.flatMap_cons, List.flatMap_cons, encodeUtf8_rfc c (h c List.mem_cons_self),
      ih fun x hx => h x (List.mem_cons_of_mem _ hx)]

/-- A well-formed string is the encoding of its code points. -/
theorem wellFormed_decodes {s : Str} {cs : List Char32} (hs : WellFormed s) (hc : Decodes s cs) :
    fromUtf32 cs = s ∧ ∀ c ∈ cs, c.toNat ≤ 0x10FFFF := by
  obtain ⟨x, h1, h2⟩ := wellFormed_list hs
  have h3 : toUtf32 s = .ok x := by rw [h2, ← fromUtf32_eq, C10_to_from_utf32_exact x h1]
  rw [((C09_to_utf32 _).1 _).mpr hc] at h3
  injection h3 with h3
  subst h3
  exact ⟨by rw [fromUtf32_eq, ← h2], h1⟩

/-- C65: the encodings of two sequences of code points compare byte by byte (the first difference decides, a proper
prefix is smaller) as the sequences do. -/
theorem C65_from_utf32_order (cs ds : List Char32) (hc : ∀ c ∈ cs, c.toNat ≤ 0x10FFFF) (hd : ∀ d ∈ ds, d.toNat ≤ 0x10FFFF) :
    fromUtf32 cs < fromUtf32 ds ↔ cs < ds := by
  rw [fromUtf32_rfc hc, fromUtf32_rfc hd, encode_lt_iff]
  · clear hc hd
    induction cs generalizing ds with
    | nil =>
      cases ds with
      | nil => simp
      | cons d ds => simp
    | cons c cs ih =>
      cases ds with
      | nil => simp
      | cons d ds =>
        rw [List.map_cons, List.map_cons, List.cons_lt_cons_iff, List.cons_lt_cons_iff, ih, UInt32.lt_iff_toNat_lt,
          UInt32.toNat_inj]
  · simpa using hc
  · simpa using hd

/-- C65: two well-formed strings compare byte by byte as their code points do. -/
theorem C65_byte_order (s t : Str) (hs : WellFormed s) (ht : WellFormed t) (cs ds : List Char32) (hc : toUtf32 s = .ok cs)
    (hd : toUtf32 t = .ok ds) : s < t ↔ cs < ds := by
  obtain ⟨h1, h2⟩ := wellFormed_decodes hs (((C09_to_utf32 _).1 _).mp hc)
  obtain ⟨h3, h4⟩ := wellFormed_decodes ht (((C09_to_utf32 _).1 _).mp hd)
  rw [← C65_from_utf32_order cs ds h2 h4, h1, h3]

/-- UTF-16 does not have this property (U+FFFF and U+10000); UTF-8 does. -/
example : fromUtf32 [0xFFFF] < fromUtf32 [0x10000] ∧ fromUtf32 [0x41, 0x7FF] < fromUtf32 [0x41, 0x800, 0x41] := by
  decide +kernel

/-- Well-formedness matters: the overlong encoding of NUL is above "A". -/
theorem C65_overlong : ∃ s t cs ds, toUtf32 s = .ok cs ∧ toUtf32 t = .ok ds ∧ cs < ds ∧ t < s :=
  ⟨[0xC0, 0x80], [0x41], [0], [0x41], by decide +kernel⟩

end Ystring
