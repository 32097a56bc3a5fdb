import Verif.Proofs.KeptSplit
/- Replacing, unescaping and the closed sets of strings. -/
namespace Ystring
open Spec

namespace Kept
variable {P : Str → Prop} (K : Kept P)
include K

theorem scanLeft {f s : Str} {n : Nat} {ps : List Str} (h : ScanLeft f n s ps) (hf : Valid f) (h0 : f ≠ []) (hP : P s) :
    ∀ p ∈ ps, P p := by
  induction h with
  | limit => intro p hp; rw [List.mem_singleton.mp hp]; exact hP
  | none _ => intro p hp; rw [List.mem_singleton.mp hp]; exact hP
  | @hit n p t ps _ _ ih =>
    have hc := valid_cut (K.valid hP) hf h0
    intro q hq
    rcases List.mem_cons.mp hq with rfl | hq
    · exact K.left (by rw [List.append_assoc] at hP; exact hP) hc.1
    · exact ih (K.right hP (kept_valid.append hc.1 hf)) q hq

theorem scanRight {f s : Str} {n : Nat} {ps : List Str} (h : ScanRight f n s ps) (hf : Valid f) (h0 : f ≠ []) (hP : P s) :
    ∀ p ∈ ps, P p := by
  induction h with
  | limit => intro p hp; rw [List.mem_singleton.mp hp]; exact hP
  | none _ => intro p hp; rw [List.mem_singleton.mp hp]; exact hP
  | @hit n p t ps _ _ ih =>
    have hc := valid_cut (K.valid hP) hf h0
    intro q hq
    rcases List.mem_append.mp hq with hq | hq
    · exact ih (K.left (by rw [List.append_assoc] at hP; exact hP) hc.1) q hq
    · rw [List.mem_singleton.mp hq]; exact K.right hP (kept_valid.append hc.1 hf)

theorem replace {s f t r : Str} {n : Int} (hn0 : PTRDIFF_MIN ≤ n) (hP : P s) (hl : Fits s) (hf : Valid f) (ht : P t)
    (h : replace s f t n = .ok r) : P r := by
  by_cases hm : n = PTRDIFF_MIN
  · subst hm; rw [C37_min_ub] at h; simp at h
  · have hmin : PTRDIFF_MIN < n := by omega
    by_cases h0 : f = []
    · subst h0
      by_cases hc : s = [] ∨ n ≤ 0
      · rw [C37_empty_pattern_partial s t n hmin hc] at h
        injection h with h; subst h; exact hP
      · rw [C37_false_empty_left s t (fun h => hc (.inl h)) n (by omega)] at h
        injection h with h; subst h
        exact K.append (K.flatten fun g hg => by rw [List.eq_of_mem_replicate hg]; exact ht) hP
    · by_cases hn : 0 ≤ n
      · obtain ⟨ps, h1, -, h2, -⟩ := C34_replace_left s f t h0 n hn
        rw [h2] at h; injection h with h; subst h
        exact K.joinWith ht (K.scanLeft h1 hf h0 hP)
      · obtain ⟨ps, h1, -, h2, -⟩ := C35_replace_right s f t h0 (fits_size hl) n (by omega) hmin
        rw [h2] at h; injection h with h; subst h
        exact K.joinWith ht (K.scanRight h1 hf h0 hP)

theorem replaceCodepoint {s r : Str} {a b : Char32} {n : Int} (hn0 : PTRDIFF_MIN ≤ n) (hP : P s) (hl : Fits s)
    (hb : b.toNat ≤ 0x10FFFF → P (rfcEncode b.toNat)) (h : replaceCodepoint s a b n = .ok r) : P r := by
  unfold Ystring.replaceCodepoint at h
  have e (c : Char32) : (encodeUtf8Buf c 4).1 = encodeUtf8 c := encodeUtf8Buf_4 c
  simp only at h
  split at h
  · simp at h
  · split at h
    · simp at h
    · rw [e, e] at h
      have hf : Valid (encodeUtf8 a) := by
        by_cases ha : a.toNat ≤ 0x10FFFF
        · rw [encodeUtf8_rfc a ha]; exact ⟨_, (rfcEncode_seq a ha).decodes⟩
        · rw [encodeUtf8_big a (by omega)]; exact ⟨[], .nil⟩
      have ht : P (encodeUtf8 b) := by
        by_cases ha : b.toNat ≤ 0x10FFFF
        · rw [encodeUtf8_rfc b ha]; exact hb ha
        · rw [encodeUtf8_big b (by omega)]; exact K.nil
      exact K.replace hn0 hP hl hf ht h

theorem foldSplits {f s last : Str} {n : Nat} {ig : Bool} {ps : List (Str × Str)}
    (h : Splits (FirstFold f) (NoFold f) ig n s ps last) (hP : P s) : (∀ x ∈ ps, P x.1) ∧ P last := by
  have cut {p t rest : Str} (hf : FirstFold f p t rest) : Valid p ∧ Valid t := by
    obtain ⟨⟨a, m, b, e, h1, h2, ha, hb, hm⟩, -⟩ := hf
    obtain ⟨e1, e2⟩ := List.append_inj (by rw [List.append_assoc, List.append_assoc] at e; exact e) h1.symm
    subst e1
    obtain ⟨e3, -⟩ := List.append_inj e2 h2.symm
    subst e3
    obtain ⟨cs, ds, hc, -⟩ := hm
    exact ⟨ha, _, hc⟩
  induction h with
  | limit => exact ⟨by simp, hP⟩
  | none _ => exact ⟨by simp, hP⟩
  | @hit n p t rest last ps hf _ _ ih =>
    have hc := cut hf
    have h' := ih (K.right hP (kept_valid.append hc.1 hc.2))
    refine ⟨fun x hx => ?_, h'.2⟩
    rcases List.mem_cons.mp hx with rfl | hx
    · exact K.left (by rw [List.append_assoc] at hP; exact hP) hc.1
    · exact h'.1 x hx
  | @skip n t rest last ps hf _ _ ih =>
    have hc := cut hf
    have h' := ih (K.right hP hc.2)
    refine ⟨fun x hx => ?_, h'.2⟩
    rcases List.mem_cons.mp hx with rfl | hx
    · exact K.nil
    · exact h'.1 x hx

theorem foldRight {f s last : Str} {n : Nat} {ps : List (Str × Str)}
    (h : ScanFoldRight f n s last ps) (hP : P s) : (∀ x ∈ ps, P x.2) ∧ P last := by
  induction h with
  | limit => exact ⟨by simp, hP⟩
  | none _ => exact ⟨by simp, hP⟩
  | @hit n p t rest last ps hf _ _ ih =>
    obtain ⟨a, m, b, e, h1, h2, ha, hb, hm⟩ := hf
    obtain ⟨e1, e2⟩ := List.append_inj (by rw [List.append_assoc, List.append_assoc] at e; exact e) h1.symm
    subst e1
    obtain ⟨e3, -⟩ := List.append_inj e2 h2.symm
    subst e3
    obtain ⟨cs, ds, hc, -⟩ := hm
    have h' := ih (K.left (by rw [List.append_assoc] at hP; exact hP) ha)
    refine ⟨fun x hx => ?_, h'.2⟩
    rcases List.mem_append.mp hx with hx | hx
    · exact h'.1 x hx
    · rw [List.mem_singleton.mp hx]
      exact K.right hP (kept_valid.append ha ⟨_, hc⟩)

theorem ciReplace {s f t r : Str} {n : Int} (hP : P s) (hl : Fits s) (hf : Valid f) (ht : P t)
    (h : CI.replace s f t n = .ok r) : P r := by
  by_cases h0 : f = []
  · subst h0
    rw [CI.C47_replace_empty s t n (fits_size hl)] at h
    injection h with h; subst h; exact hP
  · by_cases hn : 0 ≤ n
    · obtain ⟨ps, last, h1, h2⟩ := CI.C47_replace_left s f t (K.valid hP) hf h0 n hn (fits_size hl)
      rw [h2] at h; injection h with h; subst h
      obtain ⟨h3, h4⟩ := K.foldSplits h1 hP
      refine K.append ?_ h4
      rw [List.flatMap_def]
      refine K.flatten fun g hg => ?_
      obtain ⟨x, hx, rfl⟩ := List.mem_map.mp hg
      exact K.append (h3 x hx) ht
    · obtain ⟨last, ps, h1, -, h2⟩ := CI.C47_replace_right s f t (K.valid hP) hf h0 n (by omega) (fits_size hl)
      rw [h2] at h; injection h with h; subst h
      obtain ⟨h3, h4⟩ := K.foldRight h1 hP
      refine K.append h4 ?_
      rw [List.flatMap_def]
      refine K.flatten fun g hg => ?_
      obtain ⟨x, hx, rfl⟩ := List.mem_map.mp hg
      exact K.append ht (h3 x hx)

end Kept

theorem hex_ascii {b : UInt8} (h : IsHex b) : b.toNat < 0x80 := by
  unfold IsHex hexVal at h
  simp only at h
  split at h
  · omega
  · split at h
    · omega
    · split at h
      · omega
      · simp at h

theorem oct_ascii {b : UInt8} (h : IsOct b) : b.toNat < 0x80 := by unfold IsOct at h; omega

theorem rfcEncode_valid {v : Nat} (h : v ≤ 0x10FFFF) : Valid (rfcEncode v) := by
  have e : (UInt32.ofNat v).toNat = v := UInt32.toNat_ofNat_of_lt' (by simp [UInt32.size]; omega)
  have := rfcEncode_seq (UInt32.ofNat v) (by rw [e]; exact h)
  rw [e] at this
  exact ⟨_, this.decodes⟩

theorem number_lt {ds : Str} (h : ∀ d ∈ ds, IsHex d) : number 16 ds < 16 ^ ds.length := by
  have gen : ∀ (ds : Str) (a k : Nat), (∀ d ∈ ds, IsHex d) → a < 16 ^ k →
      ds.foldl (fun a d => a * 16 + (hexVal d).getD 0) a < 16 ^ (k + ds.length) := by
    intro ds
    induction ds with
    | nil => intro a k _ h; exact h
    | cons d ds ih =>
      intro a k hd ha
      have hv : (hexVal d).getD 0 < 16 := by
        have := hd d (by simp)
        unfold IsHex hexVal at this
        unfold hexVal
        simp only at this ⊢
        split
        · simp; omega
        · split
          · simp; omega
          · split
            · simp; omega
            · simp
      have := ih (a * 16 + (hexVal d).getD 0) (k + 1) (fun x hx => hd x (by simp [hx])) (by rw [Nat.pow_succ]; omega)
      rw [List.foldl_cons, List.length_cons]
      have e : k + (ds.length + 1) = k + 1 + ds.length := by omega
      rw [e]
      exact this
  have := gen ds 0 0 h (by simp)
  rw [Nat.zero_add] at this
  exact this

theorem number8_lt {ds : Str} (h : ∀ d ∈ ds, IsOct d) : number 8 ds < 8 ^ ds.length := by
  have gen : ∀ (ds : Str) (a k : Nat), (∀ d ∈ ds, IsOct d) → a < 8 ^ k →
      ds.foldl (fun a d => a * 8 + (hexVal d).getD 0) a < 8 ^ (k + ds.length) := by
    intro ds
    induction ds with
    | nil => intro a k _ h; exact h
    | cons d ds ih =>
      intro a k hd ha
      have hv : (hexVal d).getD 0 < 8 := by
        have := hd d (by simp)
        unfold IsOct at this
        unfold hexVal
        simp only
        rw [if_pos (by omega)]
        simp; omega
      have := ih (a * 8 + (hexVal d).getD 0) (k + 1) (fun x hx => hd x (by simp [hx])) (by rw [Nat.pow_succ]; omega)
      rw [List.foldl_cons, List.length_cons]
      have e : k + (ds.length + 1) = k + 1 + ds.length := by omega
      rw [e]
      exact this
  have := gen ds 0 0 h (by simp)
  rw [Nat.zero_add] at this
  exact this

/-- An escape sequence is ASCII, and stands for a valid string. -/
theorem escape_ascii {e t o : Str} (h : Escape e t o) : (∀ b ∈ e, b.toNat < 0x80) ∧ e.head? = some 0x5C ∧ Valid o := by
  have one : ∀ {b : UInt8}, b.toNat < 0x80 → Valid [b] := fun h => ascii_valid (by simpa using h)
  have un : ∀ v, Valid (utf8OrNothing v) := by
    intro v; unfold utf8OrNothing; split
    · rename_i h; exact rfcEncode_valid h
    · exact ⟨[], .nil⟩
  cases h with
  | letter h =>
    simp only [controlLetters, List.mem_cons, Prod.mk.injEq, List.not_mem_nil, or_false] at h
    rcases h with ⟨rfl, rfl⟩ | ⟨rfl, rfl⟩ | ⟨rfl, rfl⟩ | ⟨rfl, rfl⟩ | ⟨rfl, rfl⟩ | ⟨rfl, rfl⟩ | ⟨rfl, rfl⟩ <;>
      exact ⟨by decide, rfl, one (by decide)⟩
  | other h _ => exact ⟨by simp; exact h, rfl, one h⟩
  | @oct ds t h1 h2 h3 _ =>
    refine ⟨by simp; exact fun b hb => oct_ascii (h3 b hb), rfl, rfcEncode_valid ?_⟩
    have := number8_lt h3
    have : 8 ^ ds.length ≤ 8 ^ 3 := Nat.pow_le_pow_right (by omega) h2
    omega
  | @hex l ds t h1 h2 h3 _ h4 =>
    refine ⟨?_, rfl, un _⟩
    simp only [List.mem_cons]
    rintro b (rfl | rfl | hb)
    · decide
    · rcases h1 with rfl | rfl <;> decide
    · exact hex_ascii (h3 b hb)
  | @long ds t h1 h3 =>
    refine ⟨?_, rfl, un _⟩
    simp only [List.mem_cons]
    rintro b (rfl | rfl | hb)
    · decide
    · decide
    · exact hex_ascii (h3 b hb)
  | @short ds t h1 h3 _ =>
    refine ⟨?_, rfl, rfcEncode_valid (by have := number_lt h3; rw [h1] at this; omega)⟩
    simp only [List.mem_cons]
    rintro b (rfl | rfl | hb)
    · decide
    · decide
    · exact hex_ascii (h3 b hb)
  | @pair ds es t h1 h2 h3 h4 h5 h6 =>
    refine ⟨?_, rfl, rfcEncode_valid ?_⟩
    · simp only [List.mem_cons, List.mem_append]
      rintro b (rfl | rfl | hb | rfl | rfl | hb)
      · decide
      · decide
      · exact hex_ascii (h2 b hb)
      · decide
      · decide
      · exact hex_ascii (h5 b hb)
    · unfold pairValue; unfold HighSurrogate at h3; unfold LowSurrogate at h6; omega
  | @lone ds t h1 h3 _ _ _ =>
    refine ⟨?_, rfl, rfcEncode_valid (by have := number_lt h3; rw [h1] at this; omega)⟩
    simp only [List.mem_cons]
    rintro b (rfl | rfl | hb)
    · decide
    · decide
    · exact hex_ascii (h3 b hb)

theorem reads_plain {u s o : Str} (hu : ∀ b ∈ u, b ≠ 0x5C) (h : Reads Escape (u ++ s) o []) :
    ∃ o', o = u ++ o' ∧ Reads Escape s o' [] := by
  induction u generalizing o with
  | nil => exact ⟨o, rfl, h⟩
  | cons b u ih =>
    generalize hx : b :: u ++ s = x at h
    cases h with
    | stop => simp at hx
    | @plain b' s' o' t hb h =>
      simp only [List.cons_append, List.cons.injEq] at hx
      obtain ⟨rfl, rfl⟩ := hx
      obtain ⟨o'', rfl, h'⟩ := ih (fun x hx => hu x (by simp [hx])) h
      exact ⟨o'', rfl, h'⟩
    | @escape e s' out o' t he h =>
      have := (escape_ascii he).2.1
      cases e with
      | nil => simp at this
      | cons y e =>
        simp only [List.head?_cons, Option.some.injEq] at this
        simp only [List.cons_append, List.cons.injEq] at hx
        exact absurd (hx.1.trans this) (hu b (by simp))

theorem reads_valid : ∀ (n : Nat) (s o : Str), s.length ≤ n → Valid s → Reads Escape s o [] → Valid o := by
  intro n
  induction n with
  | zero =>
    intro s o hn hs h
    have : s = [] := List.length_eq_zero_iff.mp (by omega)
    subst this
    generalize hx : ([] : Str) = x at h
    cases h with
    | stop => exact ⟨[], .nil⟩
    | plain => simp at hx
    | @escape e s' out o' t he h =>
      have := (escape_ascii he).2.1
      cases e with
      | nil => simp at this
      | cons y e => simp at hx
  | succ n ih =>
    intro s o hn hs h
    obtain ⟨cs, hs⟩ := hs
    cases hs with
    | nil => exact ih [] o (by simp) ⟨[], .nil⟩ h
    | @cons u s c cs hu hs =>
      have hpos := hu.length_pos
      simp only [List.length_append] at hn
      by_cases hb : ∀ b ∈ u, b ≠ 0x5C
      · obtain ⟨o', rfl, h'⟩ := reads_plain hb h
        exact kept_valid.append ⟨_, hu.decodes⟩ (ih s o' (by omega) ⟨_, hs⟩ h')
      · have hu' : u = [0x5C] := by
          rcases seq_ascii_or hu with ⟨b, rfl, h1⟩ | h1
          · simp at hb; rw [hb]
          · exact absurd (fun b hm e => by have := h1 b hm; subst e; exact absurd this (by decide)) hb
        subst hu'
        generalize hx : [0x5C] ++ s = x at h
        cases h with
        | stop => simp at hx
        | @plain b' s' o' t hb h =>
          simp only [List.cons_append, List.cons.injEq] at hx
          exact absurd hx.1.symm hb
        | @escape e s' out o' t he h =>
          obtain ⟨h1, h2, h3⟩ := escape_ascii he
          have hv : Valid (e ++ s') := hx ▸ ⟨_, hu.decodes.append hs⟩
          have hv' := kept_valid.right hv (ascii_valid h1)
          have : 0 < e.length := by cases e with
            | nil => simp at h2
            | cons => simp
          have := congrArg List.length hx
          simp only [List.length_append] at this
          exact kept_valid.append h3 (ih s' o' (by simp at this; omega) hv' h)

theorem unescape_valid {s r : Str} (hs : Valid s) (hl : Fits s) (h : unescape s = .ok r) : Valid r :=
  reads_valid _ s r (Nat.le_refl _) hs ((C59_exact s r hl).mp h)

end Ystring
