import Verif.Spec.Codepoints
import Verif.Props.Memory
import Verif.Props.CaseInsensitiveReplace
import Verif.Props.Callback
import Verif.Proofs.Kept
import Verif.Props.Order
import Verif.Props.Safety
/-
Property theorem C89: trim and split in terms of the list of code points.
-/
namespace Ystring
open Spec

theorem toUtf32_iff {s : Str} {cs : List Char32} : toUtf32 s = .ok cs ↔ Decodes s cs := (C09_to_utf32 s).1 cs

theorem decodes_nil {s : Str} {cs : List Char32} (h : Decodes s cs) : s = [] ↔ cs = [] := by
  cases h with
  | nil => simp
  | cons h _ => simp [h.ne_nil]

theorem decodes_prefix_unique {u u' v v' : Str} {xs : List Char32} (h : Decodes u xs) (h' : Decodes u' xs)
    (e : u ++ v = u' ++ v') : u = u' := by
  induction xs generalizing u u' v v' with
  | nil => cases h; cases h'; rfl
  | cons x xs ih =>
    cases h with
    | cons ha hb => cases h' with
      | cons ha' hb' =>
        simp only [List.append_assoc] at e
        obtain ⟨rfl, -, e⟩ := ha.append_inj ha' e
        rw [ih hb hb' e]

/-! ### trim -/

theorem dropWhile_split {p : Char32 → Bool} {as bs : List Char32} (ha : ∀ c ∈ as, p c = true)
    (hb : ∀ c t, bs = c :: t → p c = false) : (as ++ bs).dropWhile p = bs := by
  induction as with
  | nil =>
    cases bs with
    | nil => rfl
    | cons c t => simp [hb c t rfl]
  | cons a as ih =>
    simp only [List.cons_append, List.dropWhile, ha a (by simp)]
    exact ih fun c hc => ha c (by simp [hc])

/-- C89: trimming drops the code points at the beginning, at the end or at both ends that satisfy the predicate. -/
theorem C89_trim (s : Str) (cs : List Char32) (hs : toUtf32 s = .ok cs) (hl : Fits s) (p : Char32 → Bool) :
    (∃ t, trimStartWhere s p = .ok t ∧ toUtf32 t = .ok (cs.dropWhile p)) ∧
    (∃ t, trimEndWhere s p = .ok t ∧ toUtf32 t = .ok (cs.reverse.dropWhile p).reverse) ∧
    (∃ t, trimWhere s p = .ok t ∧ toUtf32 t = .ok ((cs.dropWhile p).reverse.dropWhile p).reverse) := by
  have hstart : ∀ (s : Str) (cs : List Char32), Decodes s cs → s.length < SIZE_MOD →
      ∃ t, trimStartWhere s p = .ok t ∧ Decodes t (cs.dropWhile p) ∧ t.length ≤ s.length := by
    intro s cs hd hl
    obtain ⟨a, t, e, h1, ⟨as, ha, hp⟩, hn, ⟨bs, hb⟩⟩ := C42_trim_start_where s ⟨cs, hd⟩ hl p
    refine ⟨t, h1, ?_, by rw [e]; simp⟩
    have : cs = as ++ bs := by rw [e] at hd; exact hd.unique (ha.append hb)
    subst this
    rw [dropWhile_split hp]
    · exact hb
    · rintro c r rfl
      cases hb with
      | cons hc ht => exact hn _ _ _ rfl hc
  have hend : ∀ (s : Str) (cs : List Char32), Decodes s cs → s.length < SIZE_MOD →
      ∃ t, trimEndWhere s p = .ok t ∧ Decodes t (cs.reverse.dropWhile p).reverse := by
    intro s cs hd hl
    obtain ⟨a, t, e, h1, ⟨as, ha, hp⟩, hn, ⟨bs, hb⟩⟩ := C42_trim_end_where s ⟨cs, hd⟩ hl p
    refine ⟨t, h1, ?_⟩
    have : cs = bs ++ as := by rw [e] at hd; exact hd.unique (hb.append ha)
    subst this
    rw [List.reverse_append, dropWhile_split (fun c hc => hp c (by simpa using hc))]
    · simpa using hb
    · intro c r hr
      have hbs : bs = r.reverse ++ [c] := by
        have := congrArg List.reverse hr; simpa using this
      rw [hbs] at hb
      obtain ⟨u, v, w, e', hu, hv, hw⟩ := decodes_cut hb
      cases hw
      exact hn _ _ _ (by rw [e', List.append_nil]) hv
  have hl' : s.length < SIZE_MOD := by have := fits_npos hl; unfold npos at this; unfold SIZE_MOD; omega
  rw [toUtf32_iff] at hs
  refine ⟨?_, ?_, ?_⟩
  · obtain ⟨t, h1, h2, -⟩ := hstart s cs hs hl'
    exact ⟨t, h1, toUtf32_iff.mpr h2⟩
  · obtain ⟨t, h1, h2⟩ := hend s cs hs hl'
    exact ⟨t, h1, toUtf32_iff.mpr h2⟩
  · obtain ⟨t, h1, h2, h3⟩ := hstart s cs hs hl'
    obtain ⟨t', h1', h2'⟩ := hend t _ h2 (by omega)
    refine ⟨t', ?_, toUtf32_iff.mpr h2'⟩
    unfold trimWhere; rw [h1]; exact h1'

/-- C89: it does not matter at which end `trim` begins. -/
theorem C89_trim_order (s : Str) (hs : Valid s) (hl : Fits s) (p : Char32 → Bool) :
    trimWhere s p = (trimEndWhere s p >>= fun t => trimStartWhere t p) := by
  have hl' : s.length < SIZE_MOD := by have := fits_npos hl; unfold npos at this; unfold SIZE_MOD; omega
  obtain ⟨cs, hd⟩ := hs
  by_cases hall : ∀ c ∈ cs, p c = true
  · have h1 := (C20_find_first_where [] s (fun c => !p c)).2.1 cs hd (fun x hx => by simp [hall x hx])
    have h2 := (C21_find_last_where s [] (fun c => !p c) npos (by
      simp only [List.append_nil]; unfold SIZE_MOD at hl'; unfold npos; omega)).2.1 cs hd (fun x hx => by simp [hall x hx])
    have h3 := (C20_find_first_where [] [] (fun c => !p c)).2.1 [] .nil (by simp)
    have h4 := (C21_find_last_where [] [] (fun c => !p c) npos (by simp)).2.1 [] .nil (by simp)
    simp only [List.nil_append, List.length_nil, List.append_nil] at h1 h2 h3 h4
    unfold trimWhere trimStartWhere trimEndWhere
    simp only [h1, h2, bind, Except.bind]
    rw [if_pos (by decide), if_pos (by decide)]
    simp only [h3, h4]
    rfl
  · obtain ⟨a, t, b, e, h1, ⟨as, ha, hpa⟩, ⟨bs, hb, hpb⟩, hf, hn, ⟨ts, ht⟩⟩ := C42_trim_where s ⟨cs, hd⟩ hl' p
    have hcs : cs = as ++ ts ++ bs := by rw [e] at hd; exact hd.unique ((ha.append ht).append hb)
    have hts : ts ≠ [] := by
      rintro rfl
      apply hall
      intro c hc
      rw [hcs] at hc
      simp at hc
      exact hc.elim (hpa c) (hpb c)
    -- the end
    obtain ⟨b', t', e', h1', ⟨bs', hb', hpb'⟩, hn', ⟨ts', ht'⟩⟩ := C42_trim_end_where s ⟨cs, hd⟩ hl' p
    have hcs' : cs = ts' ++ bs' := by rw [e'] at hd; exact hd.unique (ht'.append hb')
    have hlast : ∀ (xs ys : List Char32), (∀ c r, xs.reverse = c :: r → p c = false) → (∀ c ∈ ys, p c = true) →
        ((xs ++ ys).reverse.dropWhile p).reverse = xs := by
      intro xs ys h1 h2
      rw [List.reverse_append, dropWhile_split (fun c hc => h2 c (by simpa using hc)) h1, List.reverse_reverse]
    have hlc : ∀ (u : Str) (xs : List Char32), Decodes u xs → NotLast p u → ∀ c r, xs.reverse = c :: r → p c = false := by
      intro u xs hu hnl c r hr
      have hx : xs = r.reverse ++ [c] := by have := congrArg List.reverse hr; simpa using this
      rw [hx] at hu
      obtain ⟨v, w, z, e', hv, hw, hz⟩ := decodes_cut hu
      cases hz
      exact hnl _ _ _ (by rw [e', List.append_nil]) hw
    have heq : ts' = as ++ ts := by
      have k1 := hlast ts' bs' (hlc _ _ ht' hn') hpb'
      have k2 := hlast (as ++ ts) bs (by
        intro c r hr
        rw [List.reverse_append] at hr
        rcases hrev : ts.reverse with _ | ⟨d, r'⟩
        · simp at hrev; exact absurd hrev hts
        · rw [hrev] at hr; simp at hr
          rw [← hr.1]; exact hlc _ _ ht hn d r' hrev) hpb
      rw [← k1, ← k2, ← hcs', ← hcs]
    have hbeq : t' = a ++ t := by
      have hb2 : bs' = bs := by
        have := hcs'.symm.trans hcs
        rw [heq] at this
        exact List.append_cancel_left this
      subst hb2
      rw [heq] at ht'
      exact decodes_prefix_unique ht' (ha.append ht) (e'.symm.trans e)
    -- the start of the rest
    rw [h1', h1]
    have hl2 : t'.length < SIZE_MOD := by rw [e'] at hl'; simp at hl'; omega
    obtain ⟨a3, t3, e3, h3, ⟨as3, ha3, hpa3⟩, hf3, ⟨ts3, ht3⟩⟩ := C42_trim_start_where t' ⟨ts', ht'⟩ hl2 p
    show .ok t = trimStartWhere t' p
    rw [h3]
    congr 1
    have hc3 : ts' = as3 ++ ts3 := by rw [e3] at ht'; exact ht'.unique (ha3.append ht3)
    have hfc : ∀ (u : Str) (xs : List Char32), Decodes u xs → NotFirst p u → ∀ c r, xs = c :: r → p c = false := by
      intro u xs hu hnf c r hr
      subst hr
      cases hu with
      | cons hc ht => exact hnf _ _ _ rfl hc
    have k1 := dropWhile_split hpa3 (hfc _ _ ht3 hf3)
    have k2 := dropWhile_split hpa (hfc _ _ ht hf)
    have hts3 : ts3 = ts := by rw [← k1, ← k2, ← hc3, heq]
    have has3 : as3 = as := by
      have := hc3.symm.trans heq
      rw [hts3] at this
      exact List.append_cancel_right this
    subst hts3; subst has3
    have h5 := decodes_prefix_unique ha3 ha (e3.symm.trans hbeq)
    subst h5
    exact (List.append_cancel_left (e3.symm.trans hbeq)).symm

example : toUtf32 [0x20, 0xC3, 0xA6, 0x20, 0x20] = .ok [0x20, 0xE6, 0x20, 0x20] ∧
    trimWhere [0x20, 0xC3, 0xA6, 0x20, 0x20] (· == 0x20) = .ok [0xC3, 0xA6] ∧
    (([0x20, 0xE6, 0x20, 0x20] : List Char32).dropWhile (· == 0x20)).reverse.dropWhile (· == 0x20) = [0xE6] := by
  decide +kernel

/-! ### split -/

theorem decodes_rest {u v : Str} {cs xs : List Char32} (h : Decodes (u ++ v) cs) (hu : Decodes u xs) :
    ∃ ys, cs = xs ++ ys ∧ Decodes v ys := by
  induction xs generalizing u cs with
  | nil => cases hu; exact ⟨cs, rfl, h⟩
  | cons x xs ih =>
    cases hu with
    | @cons a b _ _ ha hb =>
      rw [List.append_assoc] at h
      cases hc : a ++ (b ++ v) with
      | nil => have := ha.ne_nil; simp [this] at hc
      | cons z zs =>
        rw [hc] at h
        generalize hz : z :: zs = w at h
        cases h with
        | nil => simp at hz
        | cons ha' hb' =>
          obtain ⟨rfl, rfl, rfl⟩ := ha.append_inj ha' (hc.trans hz)
          obtain ⟨ys, rfl, hy⟩ := ih hb' hb
          exact ⟨ys, rfl, hy⟩

theorem keepLists_single (ig : Bool) (p : Str) (cs : List Char32) (h : Decodes p cs) :
    (keep ig [p]).map toUtf32 = (keepLists ig [cs]).map .ok := by
  have h1 := toUtf32_iff.mpr h
  have h2 := decodes_nil h
  unfold keep keepLists
  cases ig
  · simp [h1]
  · by_cases hp : p = []
    · simp [hp, h2.mp hp]
    · simp [hp, mt h2.mpr hp, h1]

theorem splits_cutAll {first : Str → Str → Str → Prop} {no : Str → Prop} {Q : Str → Prop}
    {cut : List Char32 → Option (List Char32 × List Char32)}
    (H1 : ∀ p t rest cs, Q (p ++ t ++ rest) → first p t rest → Decodes (p ++ t ++ rest) cs →
      Q rest ∧ ∃ a b, cut cs = some (a, b) ∧ Decodes p a ∧ Decodes rest b ∧ b.length < cs.length)
    (H2 : ∀ s cs, Q s → no s → Decodes s cs → cut cs = none)
    {ig : Bool} {n : Nat} {s : Str} {ps : List (Str × Str)} {last : Str} (h : Splits first no ig n s ps last) :
    Q s → ∀ (cs : List Char32) (fuel : Nat), Decodes s cs → cs.length ≤ fuel →
      (keep ig (ps.map (·.1) ++ [last])).map toUtf32 = (cutAll cut ig fuel n cs).map .ok := by
  induction h with
  | limit =>
    intro hQ cs fuel hd hf
    cases fuel <;> exact keepLists_single _ _ _ hd
  | @none n s hno =>
    intro hQ cs fuel hd hf
    have h2 := H2 s cs hQ hno hd
    cases fuel with
    | zero => exact keepLists_single _ _ _ hd
    | succ fuel => cases n with
      | zero => exact keepLists_single _ _ _ hd
      | succ n => rw [cutAll, h2]; exact keepLists_single _ _ _ hd
  | @hit n p t rest last ps h1 h2 h3 ih =>
    intro hQ cs fuel hd hf
    obtain ⟨hQ', a, b, e, ha, hb, hlt⟩ := H1 p t rest cs hQ h1 hd
    obtain ⟨fuel, rfl⟩ : ∃ f, fuel = f + 1 := ⟨fuel - 1, by omega⟩
    rw [cutAll, e]
    have hk : (ig && a.isEmpty) = false := by
      cases ig with
      | false => rfl
      | true =>
        have := mt (decodes_nil ha).mpr (h2 rfl)
        cases a <;> simp_all
    simp only [hk, Bool.false_eq_true, if_false, List.map_cons]
    have hkp : keep ig [p] = [p] := by
      unfold keep; cases ig <;> simp_all
    rw [List.cons_append, keep_cons, hkp, List.singleton_append, List.map_cons, ih hQ' b fuel hb (by omega), toUtf32_iff.mpr ha]
  | @skip n t rest last ps h1 h2 h3 ih =>
    intro hQ cs fuel hd hf
    obtain ⟨hQ', a, b, e, ha, hb, hlt⟩ := H1 [] t rest cs (by simpa using hQ) h1 (by simpa using hd)
    obtain ⟨fuel, rfl⟩ : ∃ f, fuel = f + 1 := ⟨fuel - 1, by omega⟩
    rw [cutAll, e]
    have : a = [] := (decodes_nil ha).mp rfl
    subst this; subst h2
    simp only [List.isEmpty_nil, Bool.and_self, if_true]
    rw [List.map_cons, List.cons_append, keep_cons]
    exact ih hQ' b fuel hb (by omega)

theorem span_split (q : Char32 → Bool) (as bs : List Char32) (ha : ∀ c ∈ as, q c = false)
    (hb : ∀ c t, bs = c :: t → q c = true) :
    (as ++ bs).dropWhile (fun c => !q c) = bs ∧ (as ++ bs).takeWhile (fun c => !q c) = as := by
  refine ⟨dropWhile_split (fun c hc => by simp [ha c hc]) (fun c t e => by simp [hb c t e]), ?_⟩
  induction as with
  | nil =>
    cases bs with
    | nil => rfl
    | cons c t => simp [hb c t rfl]
  | cons a as ih => simp [ha a (by simp), ih (fun c hc => ha c (by simp [hc]))]

theorem splits_where (q : Char32 → Bool) (s : Str) (cs : List Char32) (hs : toUtf32 s = .ok cs) (hl : Fits s) (n : Nat)
    (hn : 0 < n) (ig : Bool) : ∃ ps, splitWhere s (fun s => do let r ← findFirstWhere s q; .ok r.1) ⟨n, ig⟩ = .ok ps ∧
      ps.map toUtf32 = (cutAll (cutAt q) ig cs.length n cs).map .ok := by
  rw [toUtf32_iff] at hs
  have hl' : s.length < SIZE_MOD := by have := fits_npos hl; unfold npos at this; unfold SIZE_MOD; omega
  obtain ⟨ps, last, h1, h2⟩ := splitWhere_spec (goodFinder_where q) ig n s hl' ⟨cs, hs⟩ hn
  refine ⟨_, h2, splits_cutAll (Q := fun _ => True) ?_ ?_ h1 trivial cs _ hs (Nat.le_refl _)⟩
  · rintro p t rest cs - ⟨⟨as, ha, hqa⟩, c, hqc, hc⟩ hd
    rw [List.append_assoc] at hd
    obtain ⟨ys, rfl, hd1⟩ := decodes_rest hd ha
    obtain ⟨bs, rfl, hd2⟩ := decodes_rest hd1 hc.decodes
    refine ⟨trivial, as, bs, ?_, ha, hd2, by simp; omega⟩
    obtain ⟨e1, e2⟩ := span_split q as ([c] ++ bs) hqa (by rintro c t e; simp at e; rw [← e.1]; exact hqc)
    rw [cutAt, e1, e2]
    rfl
  · rintro s cs - ⟨as, ha, hqa⟩ hd
    have := hd.unique ha
    subst this
    have := (span_split q cs [] hqa (by simp)).1
    rw [List.append_nil] at this
    rw [cutAt, this]

/-- C89: `split` at characters cuts the list of code points at these characters. -/
theorem C89_split_chars (s : Str) (cs : List Char32) (hs : toUtf32 s = .ok cs) (hl : Fits s) (chars : List Char32) (n : Nat)
    (hn : 0 < n) (ig : Bool) : ∃ ps, splitChars s chars ⟨n, ig⟩ = .ok ps ∧
      ps.map toUtf32 = (cutAll (cutAt (chars.contains ·)) ig cs.length n cs).map .ok := by
  have e : u32Contains chars = (chars.contains ·) := by
    funext c; rw [Bool.eq_iff_iff, u32Contains_iff, List.contains_iff_mem]
  rw [← e]
  exact splits_where _ s cs hs hl n hn ig

/-- C89: so does the function of namespace `case_insensitive`, with all characters that differ only by case. -/
theorem C89_split_chars_case (s : Str) (cs : List Char32) (hs : toUtf32 s = .ok cs) (hl : Fits s) (chars : List Char32) (n : Nat)
    (hn : 0 < n) (ig : Bool) : ∃ ps, CI.splitChars s chars ⟨n, ig⟩ = .ok ps ∧
      ps.map toUtf32 = (cutAll (cutAt fun c => chars.any fun d => simpleUpper c.toNat = simpleUpper d.toNat) ig
        cs.length n cs).map .ok := by
  have e : u32CaseInsensitiveContains chars = fun c => chars.any fun d => decide (simpleUpper c.toNat = simpleUpper d.toNat) := by
    funext c; rw [Bool.eq_iff_iff, CI.C49_span]; simp
  rw [← e]
  exact splits_where _ s cs hs hl n hn ig

theorem newline_iff (c : Char32) : newline c = true ↔ IsNewlineChar c := by
  unfold newline IsNewlineChar; simp [or_assoc]

theorem newline_false (c : Char32) : newline c = false ↔ ¬ IsNewlineChar c := by
  rw [← newline_iff, Bool.not_eq_true]

theorem cutLine_eq (as bs : List Char32) (c : Char32) (ha : ∀ x ∈ as, newline x = false) (hc : newline c = true)
    (hn : c = 0x0D → ∀ r, bs ≠ 0x0A :: r) : cutLine (as ++ c :: bs) = some (as, bs) := by
  obtain ⟨e1, e2⟩ := span_split newline as (c :: bs) ha (by rintro c t e; simp at e; rw [← e.1]; exact hc)
  rw [cutLine, e1, e2]
  split
  · rename_i e; simp only [List.cons.injEq] at e; obtain ⟨rfl, rfl⟩ := e; exact absurd rfl (hn rfl _)
  · rename_i e; simp only [List.cons.injEq] at e; obtain ⟨rfl, rfl⟩ := e; rfl
  · rename_i e; simp at e

/-- C89: `split_lines` cuts the list of code points into lines. -/
theorem C89_split_lines (mem : List Char32) (s : Str) (cs : List Char32) (hs : toUtf32 s = .ok cs) (hl : Fits s)
    (hm : Harmless mem IsNewlineChar s) (n : Nat) (hn : 0 < n) (ig : Bool) : ∃ ps, splitLines mem s ⟨n, ig⟩ = .ok ps ∧
      ps.map toUtf32 = (cutAll cutLine ig cs.length n cs).map .ok := by
  rw [C40_memory_behind_array mem s hm]
  rw [toUtf32_iff] at hs
  have hl' : s.length < SIZE_MOD := by have := fits_npos hl; unfold npos at this; unfold SIZE_MOD; omega
  obtain ⟨ps, last, h1, h2⟩ := splitWhere_spec goodFinder_newline ig n s hl' ⟨⟨cs, hs⟩, hl'⟩ hn
  refine ⟨_, h2, splits_cutAll (Q := fun _ => True) ?_ ?_ h1 trivial cs _ hs (Nat.le_refl _)⟩
  · rintro p t rest cs - ⟨⟨as, ha, hqa⟩, ht, hlf⟩ hd
    rw [List.append_assoc] at hd
    obtain ⟨ys, rfl, hd1⟩ := decodes_rest hd ha
    have hqa' : ∀ x ∈ as, newline x = false := fun x hx => (newline_false x).mpr (hqa x hx)
    rcases ht with ⟨u, v, rfl, hu, hv⟩ | ⟨c, hc, ht⟩
    · rw [List.append_assoc] at hd1
      obtain ⟨ys, rfl, hd2⟩ := decodes_rest hd1 hu.decodes
      obtain ⟨bs, rfl, hd3⟩ := decodes_rest hd2 hv.decodes
      refine ⟨trivial, as, bs, ?_, ha, hd3, by simp; omega⟩
      obtain ⟨e1, e2⟩ := span_split newline as ([0x0D] ++ ([0x0A] ++ bs)) hqa' (by rintro c t e; simp at e; rw [← e.1]; rfl)
      rw [cutLine, e1, e2]
      rfl
    · obtain ⟨bs, rfl, hd2⟩ := decodes_rest hd1 ht.decodes
      refine ⟨trivial, as, bs, ?_, ha, hd2, by simp; omega⟩
      refine cutLine_eq as bs c hqa' ((newline_iff c).mpr hc) ?_
      rintro rfl r rfl
      exact hlf ht _ hd2
  · rintro s cs - ⟨as, ha, hqa⟩ hd
    have := hd.unique ha
    subst this
    have := (span_split newline cs [] (fun x hx => (newline_false x).mpr (hqa x hx)) (by simp)).1
    rw [List.append_nil] at this
    rw [cutLine, this]

example : toUtf32 [0x61, 0x0D, 0x0A, 0x0A, 0xC2, 0x85, 0x62] = .ok [0x61, 0x0D, 0x0A, 0x0A, 0x85, 0x62] ∧
    cutAll cutLine false 6 npos [0x61, 0x0D, 0x0A, 0x0A, 0x85, 0x62] = [[0x61], [], [], [0x62]] ∧
    cutAll cutLine true 6 1 [0x61, 0x0D, 0x0A, 0x0A, 0x85, 0x62] = [[0x61], [0x0A, 0x85, 0x62]] ∧
    splitLines [] [0x61, 0x0D, 0x0A, 0x0A, 0xC2, 0x85, 0x62] ⟨1, true⟩ = .ok [[0x61], [0x0A, 0xC2, 0x85, 0x62]] := by
  decide +kernel

/-! ### split at a string -/

theorem cutSub_some {k : Nat} (hk : 0 < k) {hit : List Char32 → Bool} {a m b : List Char32} (hm : m.length = k)
    (hh : hit m = true) (hmin : ∀ a' m' b', a ++ m ++ b = a' ++ m' ++ b' → m'.length = k → hit m' = true → a.length ≤ a'.length) :
    cutSub k hit (a ++ m ++ b) = some (a, b) := by
  induction a with
  | nil =>
    obtain ⟨x, m, rfl⟩ := List.exists_cons_of_length_pos (hm ▸ hk)
    have e1 : (x :: (m ++ b)).take k = x :: m := by
      rw [← List.cons_append, List.take_left' hm]
    have e2 : (x :: (m ++ b)).drop k = b := by
      rw [← List.cons_append, List.drop_left' hm]
    simp only [List.nil_append, List.cons_append]
    rw [cutSub, e1, e2, hh, if_pos]
    simp at hm ⊢; omega
  | cons c a ih =>
    simp only [List.cons_append] at hmin ⊢
    rw [cutSub, if_neg, ih]
    · rfl
    · intro a' m' b' e h1 h2
      have := hmin (c :: a') m' b' (by rw [e]; rfl) h1 h2
      simpa using this
    · intro h
      rw [Bool.and_eq_true, decide_eq_true_iff] at h
      have := hmin [] _ _ (by rw [List.nil_append, List.take_append_drop]) (by rw [List.length_take]; omega) h.2
      simp at this

theorem cutSub_none {k : Nat} {hit : List Char32 → Bool} {cs : List Char32}
    (h : ∀ a' m' b', cs = a' ++ m' ++ b' → m'.length = k → hit m' = false) : cutSub k hit cs = none := by
  induction cs with
  | nil => rfl
  | cons c cs ih =>
    rw [cutSub, if_neg, ih]
    · rfl
    · intro a' m' b' e h1; exact h (c :: a') m' b' (by rw [e]; rfl) h1
    · intro h'
      rw [Bool.and_eq_true, decide_eq_true_iff] at h'
      rw [h [] _ _ (by rw [List.nil_append, List.take_append_drop]) (by rw [List.length_take]; omega)] at h'
      simp at h'

theorem decodes_cut2 {s : Str} {xs ys : List Char32} (h : Decodes s (xs ++ ys)) : ∃ u v, s = u ++ v ∧ Decodes u xs ∧ Decodes v ys := by
  cases ys with
  | nil => exact ⟨s, [], by simp, by simpa using h, .nil⟩
  | cons y ys =>
    obtain ⟨u, v, t, e, h1, h2, h3⟩ := decodes_cut h
    exact ⟨u, v ++ t, by rw [e, List.append_assoc], h1, .cons h2 h3⟩

theorem decodes_cut3 {s : Str} {xs ys zs : List Char32} (h : Decodes s (xs ++ ys ++ zs)) :
    ∃ u v w, s = u ++ v ++ w ∧ Decodes u xs ∧ Decodes v ys ∧ Decodes w zs := by
  obtain ⟨u, v, rfl, h1, h2⟩ := decodes_cut2 h
  obtain ⟨a, b, rfl, h3, h4⟩ := decodes_cut2 h1
  exact ⟨a, b, v, rfl, h3, h4, h2⟩

theorem decodes_length_le {s : Str} {cs : List Char32} (h : Decodes s cs) : cs.length ≤ s.length := by
  induction h with
  | nil => simp
  | cons h _ ih => have := h.length_pos; simp; omega

/-- Shorter texts have shorter prefixes. -/
theorem decodes_prefix_le {u u' v v' : Str} {as as' bs bs' : List Char32} (e : u ++ v = u' ++ v') (eq : as ++ bs = as' ++ bs')
    (h : Decodes u as) (h' : Decodes u' as') (hl : u.length ≤ u'.length) : as.length ≤ as'.length := by
  rcases Nat.lt_or_ge as'.length as.length with hlt | hge
  · exfalso
    have : as = as' ++ as.drop as'.length := by
      have h1 := congrArg (List.take as'.length) eq
      rw [List.take_append_of_le_length (by omega), List.take_left] at h1
      conv => lhs; rw [← List.take_append_drop as'.length as, h1]
    rw [this] at h
    obtain ⟨x, y, rfl, hx, hy⟩ := decodes_cut2 h
    have ex := decodes_prefix_unique hx h' (by rw [List.append_assoc] at e; exact e)
    subst ex
    simp only [List.length_append] at hl
    have := decodes_length_le hy
    rw [List.length_drop] at this
    omega
  · exact hge

/-- Equal code points are equal bytes. -/
theorem sub_bytes {sep : Str} {ds : List Char32} (hw' : WellFormed sep) (hd : Decodes sep ds) {u v w : Str}
    (h : WellFormed (u ++ v ++ w)) (hu : Valid u) (hv : Decodes v ds) : v = sep := by
  rw [List.append_assoc] at h
  have h1 := (wellFormed_parts h hu).2
  have h2 := (wellFormed_parts h1 ⟨ds, hv⟩).1
  rw [← (wellFormed_decodes h2 hv).1, (wellFormed_decodes hw' hd).1]

theorem sub_none' {sep : Str} {ds : List Char32} (hw' : WellFormed sep) (hd : Decodes sep ds) (s : Str) (cs : List Char32)
    (hQ : WellFormed s) (hno : ∀ i, ¬ OccursAt s sep i) (hcs : Decodes s cs) (a b : List Char32) : cs ≠ a ++ ds ++ b := by
  rintro rfl
  obtain ⟨u, v, w, e', hu, hv, hw⟩ := decodes_cut3 hcs
  have hvt := sub_bytes hw' hd (e' ▸ hQ) ⟨_, hu⟩ hv
  subst hvt
  exact hno _ ⟨u, w, e', rfl⟩

theorem sub_none {sep : Str} {ds : List Char32} (hw' : WellFormed sep) (hd : Decodes sep ds) (s : Str) (cs : List Char32)
    (hQ : WellFormed s) (hno : ∀ i, ¬ OccursAt s sep i) (hcs : Decodes s cs) : cutSub ds.length (· == ds) cs = none := by
  refine cutSub_none ?_
  intro a' m' b' e hm'
  rw [Bool.eq_false_iff]
  intro hh
  have hme : m' = ds := by simpa using hh
  subst hme
  exact sub_none' hw' hd s cs hQ hno hcs _ _ e

theorem sub_hit {sep : Str} {ds : List Char32} (hw' : WellFormed sep) (hd : Decodes sep ds) (h0 : sep ≠ [])
    (p t rest : Str) (cs : List Char32) (hQ : WellFormed (p ++ t ++ rest))
    (h : t = sep ∧ ∀ i, OccursAt (p ++ sep ++ rest) sep i → p.length ≤ i) (hcs : Decodes (p ++ t ++ rest) cs) :
    WellFormed rest ∧ ∃ a b, cutSub ds.length (· == ds) cs = some (a, b) ∧ Decodes p a ∧ Decodes rest b ∧ b.length < cs.length := by
  obtain ⟨rfl, hmin⟩ := h
  have hds : 0 < ds.length := List.length_pos_iff.mpr (mt (decodes_nil hd).mpr h0)
  obtain ⟨⟨as, ha⟩, bs, hb⟩ := valid_cut ⟨cs, hcs⟩ ⟨ds, hd⟩ h0
  have := hcs.unique ((ha.append hd).append hb)
  subst this
  refine ⟨(wellFormed_parts hQ ⟨_, ha.append hd⟩).2, as, bs, ?_, ha, hb, by simp; omega⟩
  refine cutSub_some hds rfl (by simp) ?_
  intro a' m' b' e hm' hh
  have hme : m' = ds := by simpa using hh
  subst hme
  rw [e] at hcs
  obtain ⟨u, v, w, e', hu, hv, hw⟩ := decodes_cut3 hcs
  have hvt := sub_bytes hw' hd (e' ▸ hQ) ⟨_, hu⟩ hv
  subst hvt
  have hle := hmin u.length ⟨u, w, e', rfl⟩
  exact decodes_prefix_le (by simpa using e') (by simpa using e) ha hu hle

/-- The same from the right, for the reversed lists. -/
theorem sub_hit_right {sep : Str} {ds : List Char32} (hw' : WellFormed sep) (hd : Decodes sep ds) (h0 : sep ≠ [])
    (p rest : Str) (cs : List Char32) (hQ : WellFormed (rest ++ sep ++ p))
    (hmax : ∀ i, OccursAt (rest ++ sep ++ p) sep i → i ≤ rest.length) (hcs : Decodes (rest ++ sep ++ p) cs) :
    WellFormed rest ∧ ∃ a b, cutSub ds.length (· == ds.reverse) cs.reverse = some (a.reverse, b.reverse) ∧ Decodes p a ∧
      Decodes rest b ∧ b.length < cs.length := by
  have hds : 0 < ds.length := List.length_pos_iff.mpr (mt (decodes_nil hd).mpr h0)
  obtain ⟨⟨bs, hb⟩, as, ha⟩ := valid_cut ⟨cs, hcs⟩ ⟨ds, hd⟩ h0
  have := hcs.unique ((hb.append hd).append ha)
  subst this
  refine ⟨(wellFormed_parts (s := rest) (by simpa using hQ) ⟨_, hb⟩).1, as, bs, ?_, ha, hb, by simp; omega⟩
  have er : (bs ++ ds ++ as).reverse = as.reverse ++ ds.reverse ++ bs.reverse := by simp
  rw [er]
  refine cutSub_some hds (by simp) (by simp) ?_
  intro a' m' b' e hm' hh
  have hme : m' = ds.reverse := by simpa using hh
  subst hme
  have e2 : bs ++ ds ++ as = b'.reverse ++ ds ++ a'.reverse := by
    have := congrArg List.reverse e; simpa using this
  rw [e2] at hcs
  obtain ⟨u, v, w, e', hu, hv, hw⟩ := decodes_cut3 hcs
  have hvt := sub_bytes hw' hd (e' ▸ hQ) ⟨_, hu⟩ hv
  subst hvt
  have hle := hmax u.length ⟨u, w, e', rfl⟩
  have h1 := decodes_prefix_le (u := u) (u' := rest) (by simpa using e'.symm) (by simpa using e2.symm) hu hb hle
  have h2 := congrArg List.length e2
  simp at h1 h2 ⊢
  omega

/-- C89: `split` of well-formed text at a well-formed separator cuts the list of code points at the code points of the
separator. -/
theorem C89_split (s sep : Str) (cs ds : List Char32) (hw : WellFormed s) (hw' : WellFormed sep) (hs : toUtf32 s = .ok cs)
    (hd : toUtf32 sep = .ok ds) (h0 : sep ≠ []) (hl : Fits s) (n : Nat) (hn : 0 < n) (ig : Bool) :
    ∃ ps, split s sep ⟨n, ig⟩ = .ok ps ∧
      ps.map toUtf32 = (cutAll (cutSub ds.length (· == ds)) ig cs.length n cs).map .ok := by
  rw [toUtf32_iff] at hs hd
  have hl' : s.length < SIZE_MOD := by have := fits_npos hl; unfold npos at this; unfold SIZE_MOD; omega
  obtain ⟨ps, last, h1, h2⟩ := splitWhere_spec (findFirst_good h0) ig n s hl' trivial hn
  exact ⟨_, h2, splits_cutAll (Q := WellFormed) (sub_hit hw' hd h0) (sub_none hw' hd) h1 hw cs _ hs (Nat.le_refl _)⟩

theorem fold_length {xs ys : List Char32} (e : fold xs = fold ys) : xs.length = ys.length := by
  have := congrArg List.length e; simpa [fold] using this

theorem fold_none {sep : Str} {ds : List Char32} (hd : Decodes sep ds) (s : Str) (cs : List Char32)
    (hno : NoFold sep s) (hcs : Decodes s cs) (a m b : List Char32) (e : cs = a ++ m ++ b) : fold m ≠ fold ds := by
  intro hf
  subst e
  obtain ⟨u, v, w, e', hu, hv, hw⟩ := decodes_cut3 hcs
  exact hno u.length v.length ⟨u, v, w, e', rfl, rfl, ⟨_, hu⟩, ⟨_, hw⟩, m, ds, hv, hd, hf⟩

theorem foldAt_decodes {cmp p t rest : Str} {ds cs : List Char32} (hd : Decodes cmp ds)
    (h : FoldAt (p ++ t ++ rest) cmp p.length t.length) (hcs : Decodes (p ++ t ++ rest) cs) :
    ∃ as ms bs, cs = as ++ ms ++ bs ∧ Decodes p as ∧ Decodes t ms ∧ Decodes rest bs ∧ fold ms = fold ds := by
  obtain ⟨p', t', rest', e, e1, e2, ⟨as, ha⟩, ⟨bs, hb⟩, ms, ds', hm, hd', hf⟩ := h
  have := hd'.unique hd
  subst this
  simp only [List.append_assoc] at e
  obtain ⟨rfl, e3⟩ := List.append_inj e e1.symm
  obtain ⟨rfl, rfl⟩ := List.append_inj e3 e2.symm
  exact ⟨as, ms, bs, hcs.unique ((ha.append hm).append hb), ha, hm, hb, hf⟩

theorem fold_hit {sep : Str} {ds : List Char32} (hd : Decodes sep ds) (h0 : sep ≠ []) (p t rest : Str) (cs : List Char32)
    (h : FirstFold sep p t rest) (hcs : Decodes (p ++ t ++ rest) cs) :
    ∃ a b, cutSub ds.length (fun m => fold m == fold ds) cs = some (a, b) ∧ Decodes p a ∧ Decodes rest b ∧
      b.length < cs.length := by
  have hds : 0 < ds.length := List.length_pos_iff.mpr (mt (decodes_nil hd).mpr h0)
  obtain ⟨h1, hmin⟩ := h
  obtain ⟨as, ms, bs, rfl, ha, hm, hb, hf⟩ := foldAt_decodes hd h1 hcs
  refine ⟨as, bs, ?_, ha, hb, by have := fold_length hf; simp; omega⟩
  refine cutSub_some hds (fold_length hf) (by simpa using hf) ?_
  intro a' m' b' e hm' hh
  rw [e] at hcs
  obtain ⟨u, v, w, e', hu, hv, hw⟩ := decodes_cut3 hcs
  have hle := hmin u.length v.length ⟨u, v, w, e', rfl, rfl, ⟨_, hu⟩, ⟨_, hw⟩, m', ds, hv, hd, by simpa using hh⟩
  exact decodes_prefix_le (by simpa using e') (by simpa using e) ha hu hle

theorem fold_reverse (xs : List Char32) : fold xs.reverse = (fold xs).reverse := by simp [fold]

theorem fold_hit_right {sep : Str} {ds : List Char32} (hd : Decodes sep ds) (h0 : sep ≠ []) (p t rest : Str) (cs : List Char32)
    (h : FoldAt (rest ++ t ++ p) sep rest.length t.length)
    (hmax : ∀ i m, FoldAt (rest ++ t ++ p) sep i m → i + m ≤ rest.length + t.length) (hcs : Decodes (rest ++ t ++ p) cs) :
    ∃ a b, cutSub ds.length (fun m => fold m == fold ds.reverse) cs.reverse = some (a.reverse, b.reverse) ∧ Decodes p a ∧
      Decodes rest b ∧ b.length < cs.length := by
  have hds : 0 < ds.length := List.length_pos_iff.mpr (mt (decodes_nil hd).mpr h0)
  obtain ⟨bs, ms, as, rfl, hb, hm, ha, hf⟩ := foldAt_decodes hd h hcs
  have hml := fold_length hf
  refine ⟨as, bs, ?_, ha, hb, by simp; omega⟩
  have er : (bs ++ ms ++ as).reverse = as.reverse ++ ms.reverse ++ bs.reverse := by simp
  rw [er]
  refine cutSub_some hds (by simpa using hml) (by rw [fold_reverse, fold_reverse, hf]; simp) ?_
  intro a' m' b' e hm' hh
  have e2 : bs ++ ms ++ as = b'.reverse ++ m'.reverse ++ a'.reverse := by
    have := congrArg List.reverse e; simpa using this
  have hf' : fold m'.reverse = fold ds := by
    rw [fold_reverse]
    have := eq_of_beq hh
    rw [this, fold_reverse, List.reverse_reverse]
  have hml' := fold_length hf'
  rw [e2] at hcs
  obtain ⟨u, v, w, e', hu, hv, hw⟩ := decodes_cut3 hcs
  have hle := hmax u.length v.length ⟨u, v, w, e', rfl, rfl, ⟨_, hu⟩, ⟨_, hw⟩, _, ds, hv, hd, hf'⟩
  have h1 := decodes_prefix_le (u := u ++ v) (u' := rest ++ t) e'.symm e2.symm (hu.append hv) (hb.append hm) (by simpa using hle)
  have h2 := congrArg List.length e2
  simp at h1 h2 ⊢
  omega

/-- C89: so does the function of namespace `case_insensitive` for all valid strings, at code points that differ from those
of the separator at most by case. -/
theorem C89_split_case (s sep : Str) (cs ds : List Char32) (hs : toUtf32 s = .ok cs) (hd : toUtf32 sep = .ok ds) (h0 : sep ≠ [])
    (hl : Fits s) (n : Nat) (hn : 0 < n) (ig : Bool) : ∃ ps, CI.split s sep ⟨n, ig⟩ = .ok ps ∧
      ps.map toUtf32 = (cutAll (cutSub ds.length fun m => fold m == fold ds) ig cs.length n cs).map .ok := by
  rw [toUtf32_iff] at hs hd
  have hl' : s.length < SIZE_MOD := by have := fits_npos hl; unfold npos at this; unfold SIZE_MOD; omega
  obtain ⟨ps, last, h1, h2⟩ := splitWhere_spec (CI.findFirst_finder sep ⟨ds, hd⟩ h0) ig n s hl' ⟨cs, hs⟩ hn
  refine ⟨_, h2, splits_cutAll (Q := fun _ => True) (fun p t rest cs _ h hc => ⟨trivial, fold_hit hd h0 p t rest cs h hc⟩)
    ?_ h1 trivial cs _ hs (Nat.le_refl _)⟩
  intro s cs _ hno hcs
  exact cutSub_none fun a m b e _ => by
    rw [Bool.eq_false_iff]; intro hh; exact fold_none hd s cs hno hcs a m b e (by simpa using hh)

example : split [0x61, 0xC3, 0xA6, 0x2C, 0xC3, 0xA6, 0x2C, 0x62] [0xC3, 0xA6, 0x2C] ⟨npos, true⟩ = .ok [[0x61], [0x62]] ∧
    cutAll (cutSub 2 (· == [0xE6, 0x2C])) true 6 npos [0x61, 0xE6, 0x2C, 0xE6, 0x2C, 0x62] = [[0x61], [0x62]] ∧
    CI.split [0x61, 0xC3, 0x86, 0x2C, 0x62] [0xC3, 0xA6, 0x2C] = .ok [[0x61], [0x62]] := by decide +kernel

example : WellFormed [0x61, 0xC3, 0xA6, 0x2C] := ⟨[0x61, 0xE6, 0x2C], by unfold IsScalar; decide, by decide⟩

/-! ### replace -/

theorem scanLeft_splits {f : Str} {n : Nat} {s : Str} {ps : List Str} (h : ScanLeft f n s ps) :
    ∃ qs last, ps = qs.map (·.1) ++ [last] ∧
      Splits (fun p t rest => t = f ∧ ∀ i, OccursAt (p ++ f ++ rest) f i → p.length ≤ i)
        (fun s => ∀ i, ¬ OccursAt s f i) false n s qs last := by
  induction h with
  | @limit s => exact ⟨[], s, rfl, .limit⟩
  | @none n s h => exact ⟨[], s, rfl, .none h⟩
  | @hit n p t ps h1 _ ih =>
    obtain ⟨qs, last, rfl, h⟩ := ih
    exact ⟨(p, f) :: qs, last, rfl, .hit ⟨rfl, h1⟩ (by simp) h⟩

theorem decodes_join {to : Str} {es : List Char32} (ht : Decodes to es) : ∀ {ps : List Str} {ls : List (List Char32)},
    ps.map toUtf32 = ls.map .ok → Decodes (joinWith to ps) (joinLists es ls) := by
  intro ps
  induction ps with
  | nil =>
    intro ls h
    have : ls = [] := by simpa using h.symm
    subst this; exact .nil
  | cons p ps ih =>
    intro ls h
    cases ls with
    | nil => simp at h
    | cons l ls =>
      simp only [List.map_cons, List.cons.injEq] at h
      have hp := toUtf32_iff.mp h.1
      cases ps with
      | nil =>
        have : ls = [] := by simpa using h.2.symm
        subst this; exact hp
      | cons q ps =>
        cases ls with
        | nil => simp at h
        | cons m ls => exact (hp.append ht).append (ih h.2)

theorem joinLists_snoc (es : List Char32) (ls : List (List Char32)) (l : List Char32) (h : ls ≠ []) :
    joinLists es (ls ++ [l]) = joinLists es ls ++ es ++ l := by
  induction ls with
  | nil => exact absurd rfl h
  | cons m ls ih =>
    cases ls with
    | nil => simp [joinLists]
    | cons k ls =>
      simp only [List.cons_append] at ih ⊢
      rw [joinLists, ih (by simp), joinLists]
      simp

theorem joinLists_reverse (es : List Char32) (ls : List (List Char32)) :
    joinLists es (ls.map List.reverse).reverse = (joinLists es.reverse ls).reverse := by
  induction ls with
  | nil => rfl
  | cons l ls ih =>
    cases ls with
    | nil => simp [joinLists]
    | cons m ls =>
      rw [List.map_cons, List.reverse_cons, joinLists_snoc _ _ _ (by simp), ih, joinLists]
      simp

theorem scanRight_cutAll {f : Str} {ds : List Char32} (hw' : WellFormed f) (hd : Decodes f ds) (h0 : f ≠ []) {n : Nat} {s : Str}
    {ps : List Str} (h : ScanRight f n s ps) : WellFormed s → ∀ (cs : List Char32) (fuel : Nat), Decodes s cs → cs.length ≤ fuel →
      ps.map toUtf32 =
        ((cutAll (cutSub ds.length (· == ds.reverse)) false fuel n cs.reverse).map List.reverse).reverse.map .ok := by
  induction h with
  | limit =>
    intro hQ cs fuel hd hf
    cases fuel <;> simp [cutAll, keepLists, toUtf32_iff, hd]
  | @none n s hno =>
    intro hQ cs fuel hcs hf
    have h2 : cutSub ds.length (· == ds.reverse) cs.reverse = none := by
      refine cutSub_none ?_
      intro a' m' b' e hm'
      rw [Bool.eq_false_iff]
      intro hh
      have hme : m' = ds.reverse := by simpa using hh
      subst hme
      refine sub_none' hw' hd s cs hQ hno hcs b'.reverse a'.reverse ?_
      have := congrArg List.reverse e; simpa using this
    cases fuel with
    | zero => simp [cutAll, keepLists, toUtf32_iff, hcs]
    | succ fuel => cases n with
      | zero => simp [cutAll, keepLists, toUtf32_iff, hcs]
      | succ n => rw [cutAll, h2]; simp [keepLists, toUtf32_iff, hcs]
  | @hit n p t ps h1 h2 ih =>
    intro hQ cs fuel hcs hf
    obtain ⟨hQ', a, b, e, ha, hb, hlt⟩ := sub_hit_right hw' hd h0 p t cs hQ h1 hcs
    obtain ⟨fuel, rfl⟩ : ∃ f, fuel = f + 1 := ⟨fuel - 1, by omega⟩
    rw [cutAll, e]
    simp only [Bool.false_and, Bool.false_eq_true, if_false, List.map_cons, List.reverse_cons, List.map_append, List.map_nil,
      List.reverse_reverse]
    rw [ih hQ' b fuel hb (by omega), toUtf32_iff.mpr ha]

/-- C89: `replace` in well-formed text cuts the list of code points at the code points of `from`, and puts the code points
of `to` between the pieces. A negative number of replacements does the same from the right. -/
theorem C89_replace (s f to : Str) (cs ds es : List Char32) (hw : WellFormed s) (hw' : WellFormed f) (hs : toUtf32 s = .ok cs)
    (hd : toUtf32 f = .ok ds) (ht : toUtf32 to = .ok es) (h0 : f ≠ []) (hl : Fits s) (n : Int) (hmin : PTRDIFF_MIN < n) :
    ∃ r, replace s f to n = .ok r ∧ toUtf32 r = .ok (
      if 0 ≤ n then joinLists es (cutAll (cutSub ds.length (· == ds)) false cs.length n.toNat cs)
      else (joinLists es.reverse (cutAll (cutSub ds.length (· == ds.reverse)) false cs.length (-n).toNat cs.reverse)).reverse) := by
  rw [toUtf32_iff] at hs hd ht
  have hl' : s.length < SIZE_MOD := by have := fits_npos hl; unfold npos at this; unfold SIZE_MOD; omega
  by_cases hn : 0 ≤ n
  · rw [if_pos hn]
    obtain ⟨ps, h1, -, h2, -⟩ := C34_replace_left s f to h0 n hn
    obtain ⟨qs, last, rfl, h4⟩ := scanLeft_splits h1
    refine ⟨_, h2, toUtf32_iff.mpr (decodes_join ht ?_)⟩
    have h3 := splits_cutAll (Q := WellFormed) (sub_hit hw' hd h0) (sub_none hw' hd) h4 hw cs _ hs (Nat.le_refl _)
    simpa [keep] using h3
  · rw [if_neg hn]
    obtain ⟨ps, h1, -, h2, -⟩ := C35_replace_right s f to h0 hl' n (by omega) hmin
    refine ⟨_, h2, toUtf32_iff.mpr ?_⟩
    have := decodes_join ht (scanRight_cutAll hw' hd h0 h1 hw cs _ hs (Nat.le_refl _))
    rwa [joinLists_reverse] at this

theorem flatMap_join (to last : Str) (ps : List (Str × Str)) :
    ps.flatMap (fun x => x.1 ++ to) ++ last = joinWith to (ps.map (·.1) ++ [last]) := by
  induction ps with
  | nil => rfl
  | cons p ps ih =>
    rw [List.flatMap_cons, List.append_assoc, ih]
    cases ps <;> simp [joinWith]

theorem flatMap_join_right (to last : Str) (ps : List (Str × Str)) :
    last ++ ps.flatMap (fun x => to ++ x.2) = joinWith to (last :: ps.map (·.2)) := by
  induction ps generalizing last with
  | nil => simp [joinWith]
  | cons p ps ih => rw [List.flatMap_cons, List.map_cons, joinWith, ← ih]; simp

theorem scanFoldRight_cutAll {f : Str} {ds : List Char32} (hd : Decodes f ds) (h0 : f ≠ []) {n : Nat} {s last : Str}
    {ps : List (Str × Str)} (h : ScanFoldRight f n s last ps) : ∀ (cs : List Char32) (fuel : Nat), Decodes s cs → cs.length ≤ fuel →
      (last :: ps.map (·.2)).map toUtf32 =
        ((cutAll (cutSub ds.length fun m => fold m == fold ds.reverse) false fuel n cs.reverse).map List.reverse).reverse.map .ok := by
  induction h with
  | limit =>
    intro cs fuel hd hf
    cases fuel <;> simp [cutAll, keepLists, toUtf32_iff, hd]
  | @none n s hno =>
    intro cs fuel hcs hf
    have h2 : cutSub ds.length (fun m => fold m == fold ds.reverse) cs.reverse = none := by
      refine cutSub_none ?_
      intro a' m' b' e hm'
      rw [Bool.eq_false_iff]
      intro hh
      refine fold_none hd s cs hno hcs b'.reverse m'.reverse a'.reverse ?_ ?_
      · have := congrArg List.reverse e; simpa using this
      · rw [fold_reverse, eq_of_beq hh, fold_reverse, List.reverse_reverse]
    cases fuel with
    | zero => simp [cutAll, keepLists, toUtf32_iff, hcs]
    | succ fuel => cases n with
      | zero => simp [cutAll, keepLists, toUtf32_iff, hcs]
      | succ n => rw [cutAll, h2]; simp [keepLists, toUtf32_iff, hcs]
  | @hit n p t rest last ps h1 h2 h3 ih =>
    intro cs fuel hcs hf
    obtain ⟨a, b, e, ha, hb, hlt⟩ := fold_hit_right hd h0 p t rest cs h1 h2 hcs
    obtain ⟨fuel, rfl⟩ : ∃ f, fuel = f + 1 := ⟨fuel - 1, by omega⟩
    rw [cutAll, e]
    simp only [Bool.false_and, Bool.false_eq_true, if_false, List.map_cons, List.reverse_cons, List.map_append, List.map_nil,
      List.reverse_reverse]
    rw [← ih b fuel hb (by omega), toUtf32_iff.mpr ha]
    simp

/-- C89: so does the function of namespace `case_insensitive` for all valid strings, with code points that differ from those
of `from` at most by case. -/
theorem C89_replace_case (s f to : Str) (cs ds es : List Char32) (hs : toUtf32 s = .ok cs) (hd : toUtf32 f = .ok ds)
    (ht : toUtf32 to = .ok es) (h0 : f ≠ []) (hl : Fits s) (n : Int) :
    ∃ r, CI.replace s f to n = .ok r ∧ toUtf32 r = .ok (
      if 0 ≤ n then joinLists es (cutAll (cutSub ds.length fun m => fold m == fold ds) false cs.length n.toNat cs)
      else (joinLists es.reverse
        (cutAll (cutSub ds.length fun m => fold m == fold ds.reverse) false cs.length (-n).toNat cs.reverse)).reverse) := by
  rw [toUtf32_iff] at hs hd ht
  have hl' : s.length < SIZE_MOD := by have := fits_npos hl; unfold npos at this; unfold SIZE_MOD; omega
  by_cases hn : 0 ≤ n
  · rw [if_pos hn]
    obtain ⟨ps, last, h1, h2⟩ := CI.C47_replace_left s f to ⟨cs, hs⟩ ⟨ds, hd⟩ h0 n hn hl'
    rw [flatMap_join] at h2
    refine ⟨_, h2, toUtf32_iff.mpr (decodes_join ht ?_)⟩
    have h3 := splits_cutAll (Q := fun _ => True) (cut := cutSub ds.length fun m => fold m == fold ds)
      (fun p t rest cs _ h hc => ⟨trivial, fold_hit hd h0 p t rest cs h hc⟩)
      (fun s cs _ hno hcs => cutSub_none fun a m b e _ => by
        rw [Bool.eq_false_iff]; intro hh; exact fold_none hd s cs hno hcs a m b e (by simpa using hh))
      h1 trivial cs _ hs (Nat.le_refl _)
    simpa [keep] using h3
  · rw [if_neg hn]
    obtain ⟨last, ps, h1, -, h2⟩ := CI.C47_replace_right s f to ⟨cs, hs⟩ ⟨ds, hd⟩ h0 n (by omega) hl'
    rw [flatMap_join_right] at h2
    refine ⟨_, h2, toUtf32_iff.mpr ?_⟩
    have := decodes_join ht (scanFoldRight_cutAll hd h0 h1 cs _ hs (Nat.le_refl _))
    rwa [joinLists_reverse] at this

example : replace [0xC3, 0xA6, 0x61, 0xC3, 0xA6] [0xC3, 0xA6] [0x62, 0x63] 1 = .ok [0x62, 0x63, 0x61, 0xC3, 0xA6] ∧
    replace [0xC3, 0xA6, 0x61, 0xC3, 0xA6] [0xC3, 0xA6] [0x62, 0x63] (-1) = .ok [0xC3, 0xA6, 0x61, 0x62, 0x63] ∧
    cutAll (cutSub 1 (· == [0xE6])) false 3 1 [0xE6, 0x61, 0xE6] = [[], [0x61, 0xE6]] := by decide +kernel

example : Harmless [] IsNewlineChar [0x61, 0x0D, 0x0A] := by simp [Harmless]

end Ystring
