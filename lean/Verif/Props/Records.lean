import Verif.Props.Memory
import Verif.Props.Escape
import Verif.Props.Unescape
import Verif.Props.Concat
/-
Property theorems C118: when splitting gives back the list that was joined, and lists of strings that are escaped, joined, split and unescaped.
-/
namespace Ystring
open Spec

/-! ### split after join -/

theorem scanLeft_join {sep : Str} (ps : List Str) (hp : ps ≠ []) (n : Nat) (hn : ps.length ≤ n + 1)
    (h1 : ∀ p ∈ ps.dropLast, ∀ i, OccursAt (p ++ sep) sep i → i = p.length) (h2 : ∀ p, ps.getLast? = some p → ∀ i, ¬ OccursAt p sep i) :
    ScanLeft sep n (joinWith sep ps) ps := by
  induction ps generalizing n with
  | nil => exact absurd rfl hp
  | cons p ps ih =>
    by_cases hps : ps = []
    · subst hps; exact .none (h2 p rfl)
    · have := List.length_pos_iff.mpr hps
      rw [List.length_cons] at hn
      obtain ⟨m, rfl⟩ : ∃ m, n = m + 1 := ⟨n - 1, by omega⟩
      rw [joinWith_cons _ _ hps]
      obtain ⟨q, qs, rfl⟩ := List.exists_cons_of_ne_nil hps
      refine .hit ?_ (ih hps m (by omega) (fun x hx => h1 x (by rw [List.dropLast_cons_cons]; exact List.mem_cons_of_mem _ hx))
        (fun x hx => h2 x (by rw [List.getLast?_cons_cons]; exact hx)))
      rintro i ⟨a, c, e, rfl⟩
      rcases Nat.lt_or_ge a.length p.length with hlt | hge
      · exfalso
        have hl : (a ++ sep).length ≤ (p ++ sep).length := by simp only [List.length_append]; omega
        have h : (p ++ sep ++ joinWith sep (q :: qs)).take (a ++ sep).length = a ++ sep := by rw [e, List.take_left]
        rw [List.take_append_of_le_length hl] at h
        have h3 : OccursAt (p ++ sep) sep a.length := by
          refine ⟨a, (p ++ sep).drop (a ++ sep).length, ?_, rfl⟩
          conv => rhs; lhs; rw [← h]
          rw [List.take_append_drop]
        have := h1 p (by rw [List.dropLast_cons_cons]; exact List.mem_cons_self) _ h3
        omega
      · exact hge

theorem scanLeft_cuts {sep : Str} {n : Nat} {s : Str} {ps : List Str} (h : ScanLeft sep n s ps) :
    ∀ p ∈ ps.dropLast, ∀ i, OccursAt (p ++ sep) sep i → i = p.length := by
  induction h with
  | limit => simp
  | none => simp
  | @hit n p t ps h1 h2 ih =>
    intro q hq i hi
    have hne : ps ≠ [] := by cases h2 <;> simp
    obtain ⟨x, xs, rfl⟩ := List.exists_cons_of_ne_nil hne
    rw [List.dropLast_cons_cons] at hq
    rcases List.mem_cons.mp hq with rfl | hq
    · obtain ⟨a, b, e, rfl⟩ := hi
      have h3 := h1 a.length ⟨a, b ++ t, by rw [e]; simp, rfl⟩
      have h4 := congrArg List.length e
      simp only [List.length_append] at h4
      omega
    · exact ih q hq i hi

/-- C118: `split` gives back the list that was joined, exactly if the separator occurs in no piece together with the separator behind it, except at its
end, and not in the last piece. -/
theorem C118_split_join (sep : Str) (h0 : sep ≠ []) (ps : List Str) (hp : ps ≠ []) (hs : (join ps sep).length < npos) :
    split (join ps sep) sep = .ok ps ↔
      (∀ p ∈ ps.dropLast, ∀ i, OccursAt (p ++ sep) sep i → i = p.length) ∧ ∀ p, ps.getLast? = some p → ∀ i, ¬ OccursAt p sep i := by
  have hs' : (join ps sep).length < SIZE_MOD := by unfold npos at hs; unfold SIZE_MOD; omega
  have hn0 : 0 < npos := by unfold npos; omega
  obtain ⟨qs, h1, h2, h3⟩ := C38_split_join (join ps sep) sep h0 npos hn0 hs'
  obtain ⟨qs', k1, -, -, -, k2⟩ := C39_split_pieces (join ps sep) sep h0 npos hn0 hs'
  rw [h1] at k1
  injection k1 with k1
  subst k1
  -- a list of pieces is not longer than the joined string plus one
  have len : ∀ l : List Str, l ≠ [] → l.length ≤ (joinWith sep l).length + 1 := by
    intro l
    induction l with
    | nil => intro h; exact absurd rfl h
    | cons p l ih =>
      intro _
      by_cases hl : l = []
      · subst hl; simp
      · have h4 := ih hl
        have h5 := List.length_pos_iff.mpr h0
        rw [joinWith_cons _ _ hl]
        simp only [List.length_cons, List.length_append]
        omega
  show split (join ps sep) sep ⟨npos, false⟩ = .ok ps ↔ _
  rw [h1]
  constructor
  · intro e
    injection e with e
    subst e
    have h4 := len _ hp
    rw [← join_eq] at h4
    exact ⟨scanLeft_cuts h2, fun p hp' => k2 (by omega) p (List.mem_of_getLast? hp')⟩
  · rintro ⟨g1, g2⟩
    congr 1
    have h4 := len ps hp
    rw [← join_eq] at h4
    refine h2.unique ?_
    rw [join_eq]
    exact scanLeft_join ps hp npos (by omega) g1 g2

-- "ab" joined with "bc": the separator of "abbc" is found where it was put; joined with "bb" it is found one byte too early
example : split (join [[0x61, 0x62], [0x63]] [0x62, 0x63]) [0x62, 0x63] = .ok [[0x61, 0x62], [0x63]] ∧
    split (join [[0x61, 0x62], [0x63]] [0x62, 0x62]) [0x62, 0x62] = .ok [[0x61], [0x62, 0x63]] := by decide +kernel

/-! ### split_chars and split_lines after join -/

/-- two ways to cut a text at its first code point that satisfies `q` are the same -/
theorem first_unique {q : Char32 → Prop} {us vs : List Unit8} {x y r r' : Str} {c d : Char32} (hu : Units us) (hv : Units vs) (hx : IsSeq x c)
    (hy : IsSeq y d) (hc : q c) (hd : q d) (hus : ∀ u ∈ us, ¬ q u.2) (hvs : ∀ u ∈ vs, ¬ q u.2)
    (e : bytesOf us ++ (x ++ r) = bytesOf vs ++ (y ++ r')) : bytesOf us = bytesOf vs ∧ x = y ∧ r = r' := by
  induction us generalizing vs with
  | nil =>
    cases vs with
    | nil => obtain ⟨e1, e2, e3⟩ := hx.append_inj hy (by simpa using e); exact ⟨rfl, e1, e3⟩
    | cons v vs =>
      exfalso
      rw [Units_cons] at hv
      obtain ⟨e1, e2, e3⟩ := hx.append_inj hv.1 (by simpa using e)
      exact hvs v List.mem_cons_self (e2 ▸ hc)
  | cons u us ih =>
    rw [Units_cons] at hu
    cases vs with
    | nil =>
      exfalso
      obtain ⟨e1, e2, e3⟩ := hu.1.append_inj hy (by simpa using e)
      exact hus u List.mem_cons_self (e2 ▸ hd)
    | cons v vs =>
      rw [Units_cons] at hv
      obtain ⟨e1, e2, e3⟩ := hu.1.append_inj hv.1 (by simpa using e)
      obtain ⟨f1, f2, f3⟩ := ih hu.2 hv.2 (fun w hw => hus w (List.mem_cons_of_mem _ hw)) (fun w hw => hvs w (List.mem_cons_of_mem _ hw)) e3
      exact ⟨by rw [bytesOf_cons, bytesOf_cons, e1, f1], f2, f3⟩

theorem none_units {q : Char32 → Prop} {p : Str} (h : ∃ cs, Decodes p cs ∧ ∀ x ∈ cs, ¬ q x) : ∃ us, Units us ∧ bytesOf us = p ∧ ∀ u ∈ us, ¬ q u.2 := by
  obtain ⟨cs, hd, hn⟩ := h
  obtain ⟨us, h1, h2, h3⟩ := hd.units
  exact ⟨us, h1, h2, fun u hu => hn _ (by rw [← h3]; exact List.mem_map_of_mem hu)⟩

theorem cuts_unique {first : Str → Str → Str → Prop} {no : Str → Prop} {P : Str → Prop}
    (F : ∀ p t r p' t' r', P (p ++ t ++ r) → p ++ t ++ r = p' ++ t' ++ r' → first p t r → first p' t' r' → p = p' ∧ t = t')
    (N : ∀ p t r, P (p ++ t ++ r) → first p t r → ¬ no (p ++ t ++ r)) (T : ∀ p t r, P (p ++ t ++ r) → first p t r → P r)
    {n : Nat} {s : Str} {ps ps' : List (Str × Str)} {last last' : Str} (hP : P s) (h : Splits first no false n s ps last)
    (h' : Splits first no false n s ps' last') : ps = ps' ∧ last = last' := by
  induction h generalizing ps' last' with
  | limit =>
    cases h' with
    | limit => exact ⟨rfl, rfl⟩
    | none _ => exact ⟨rfl, rfl⟩
  | none h1 =>
    cases h' with
    | limit => exact ⟨rfl, rfl⟩
    | none _ => exact ⟨rfl, rfl⟩
    | hit h2 _ _ => exact absurd h1 (N _ _ _ hP h2)
    | skip _ h3 _ => cases h3
  | @hit n p t rest last ps h1 h2 h3 ih =>
    generalize hs : p ++ t ++ rest = s at h'
    cases h' with
    | none h4 => subst hs; exact absurd h4 (N _ _ _ hP h1)
    | hit h4 h5 h6 =>
      obtain ⟨rfl, rfl⟩ := F _ _ _ _ _ _ hP hs h1 h4
      have e := List.append_cancel_left hs
      subst e
      obtain ⟨rfl, rfl⟩ := ih (T _ _ _ hP h1) h6
      exact ⟨rfl, rfl⟩
    | skip _ h5 _ => cases h5
  | skip _ h2 _ => cases h2

/-- the joined list, cut where it was joined -/
theorem splits_join {first : Str → Str → Str → Prop} {no : Str → Prop} {sep : Str} (ps : List Str) (hp : ps ≠ []) (n : Nat) (hn : ps.length ≤ n + 1)
    (h1 : ∀ p qs, qs ≠ [] → p ∈ ps → (∀ q ∈ qs, q ∈ ps) → first p sep (joinWith sep qs)) (h2 : ∀ p ∈ ps, no p) :
    ∃ cuts last, Splits first no false n (joinWith sep ps) cuts last ∧ cuts.map (·.1) ++ [last] = ps := by
  induction ps generalizing n with
  | nil => exact absurd rfl hp
  | cons p ps ih =>
    by_cases hps : ps = []
    · subst hps; exact ⟨[], p, .none (h2 p List.mem_cons_self), rfl⟩
    · have := List.length_pos_iff.mpr hps
      rw [List.length_cons] at hn
      obtain ⟨m, rfl⟩ : ∃ m, n = m + 1 := ⟨n - 1, by omega⟩
      obtain ⟨cuts, last, h3, h4⟩ := ih hps m (by omega) (fun x qs a b c => h1 x qs a (List.mem_cons_of_mem _ b) fun q hq => List.mem_cons_of_mem _ (c q hq))
        fun x hx => h2 x (List.mem_cons_of_mem _ hx)
      rw [joinWith_cons _ _ hps]
      exact ⟨(p, sep) :: cuts, last, .hit (h1 p ps hps List.mem_cons_self fun q hq => List.mem_cons_of_mem _ hq) (by simp) h3, by simp [h4]⟩

theorem valid_join {sep : Str} (hsep : Valid sep) (ps : List Str) (h : ∀ p ∈ ps, Valid p) : Valid (joinWith sep ps) := by
  induction ps with
  | nil => exact ⟨[], .nil⟩
  | cons p ps ih =>
    by_cases hps : ps = []
    · subst hps; exact h p List.mem_cons_self
    · rw [joinWith_cons _ _ hps, List.append_assoc, valid_append_iff (h p List.mem_cons_self), valid_append_iff hsep]
      exact ih fun q hq => h q (List.mem_cons_of_mem _ hq)

theorem piece_count {sep : Str} (h0 : sep ≠ []) (l : List Str) (h : l ≠ []) : l.length ≤ (joinWith sep l).length + 1 := by
  induction l with
  | nil => exact absurd rfl h
  | cons p l ih =>
    by_cases hl : l = []
    · subst hl; simp
    · have h4 := ih hl
      have h5 := List.length_pos_iff.mpr h0
      rw [joinWith_cons _ _ hl]
      simp only [List.length_cons, List.length_append]
      omega

/-- C118: `split_lines` gives back lines that were joined with any newline (LF, CR, CR LF, VT, FF, U+0085, U+2028 or U+2029), if no line contains a newline. -/
theorem C118_split_lines (nl : Str) (hnl : IsNewline nl) (ps : List Str) (hp : ps ≠ []) (h : ∀ p ∈ ps, NoNewline p) (hs : (join ps nl).length < npos) :
    splitLines [] (join ps nl) = .ok ps := by
  have hs' : (join ps nl).length < SIZE_MOD := by unfold npos at hs; unfold SIZE_MOD; omega
  have hn0 : 0 < npos := by unfold npos; omega
  have hvn : Valid nl := by
    rcases hnl with ⟨u, v, rfl, hu, hv⟩ | ⟨c, -, hc⟩
    · exact ⟨_, hu.decodes.append hv.decodes⟩
    · exact ⟨_, hc.decodes⟩
  have h0 : nl ≠ [] := by
    rcases hnl with ⟨u, v, rfl, hu, hv⟩ | ⟨c, -, hc⟩
    · have := hu.ne_nil; simp [this]
    · exact hc.ne_nil
  have hv : Valid (join ps nl) := by
    rw [join_eq]
    exact valid_join hvn ps fun p hp => by obtain ⟨cs, hd, -⟩ := h p hp; exact ⟨cs, hd⟩
  obtain ⟨cuts, last, h1, h2⟩ := splitWhere_spec goodFinder_newline false npos (join ps nl) hs' ⟨hv, hs'⟩ hn0
  have hc := piece_count h0 ps hp
  rw [← join_eq] at hc
  have LF : IsNewlineChar 0x0A := .inl rfl
  have CR : IsNewlineChar 0x0D := .inr (.inr (.inr (.inl rfl)))
  -- the list, cut where it was joined, is a way to cut at newlines
  obtain ⟨cuts', last', g1, g2⟩ := splits_join (sep := nl)
    (first := fun p t rest => NoNewline p ∧ IsNewline t ∧ (IsSeq t 0x0D → ∀ xs, ¬ Decodes rest (0x0A :: xs))) (no := NoNewline) ps hp npos (by omega)
    (by
      intro p qs hq hpm hqs
      refine ⟨h p hpm, hnl, ?_⟩
      intro hcr xs hx
      -- what follows CR begins with a code point of a line, or with CR
      obtain ⟨q, qs, rfl⟩ := List.exists_cons_of_ne_nil hq
      obtain ⟨cs, hd, hno⟩ := h q (hqs q List.mem_cons_self)
      cases cs with
      | nil =>
        have hqn : q = [] := by
          cases hd with
          | nil => rfl
        subst hqn
        by_cases hqs' : qs = []
        · subst hqs'
          have : Decodes (joinWith nl [[]]) [] := .nil
          have := hx.unique this
          cases this
        · rw [joinWith_cons _ _ hqs'] at hx
          obtain ⟨ys, hy⟩ := valid_join hvn qs fun p hp => by
            obtain ⟨cs, hd, -⟩ := h p (hqs p (List.mem_cons_of_mem _ hp)); exact ⟨cs, hd⟩
          have := hx.unique (by simpa using hcr.decodes.append hy)
          injection this with e _
          revert e; decide
      | cons c cs =>
        obtain ⟨ys, hy⟩ : ∃ ys, Decodes (joinWith nl (q :: qs)) (c :: ys) := by
          by_cases hqs' : qs = []
          · subst hqs'; exact ⟨cs, hd⟩
          · rw [joinWith_cons _ _ hqs', List.append_assoc]
            obtain ⟨ys, hy⟩ := valid_join hvn qs fun p hp => by
              obtain ⟨cs, hd, -⟩ := h p (hqs p (List.mem_cons_of_mem _ hp)); exact ⟨cs, hd⟩
            obtain ⟨zs, hz⟩ := hvn
            exact ⟨_, hd.append (hz.append hy)⟩
        have := hx.unique hy
        injection this with e _
        exact hno c List.mem_cons_self (e ▸ LF))
    h
  rw [join_eq] at h1 h2
  have hv' : Valid (joinWith nl ps) := by rw [← join_eq]; exact hv
  have hu := cuts_unique (P := Valid) ?F ?N ?T hv' h1 g1
  case T =>
    rintro p t r hP ⟨⟨cs, hd, -⟩, ht, -⟩
    have htv : Valid t := by
      rcases ht with ⟨u, v, rfl, hu, hv⟩ | ⟨c, -, hc⟩
      · exact ⟨_, hu.decodes.append hv.decodes⟩
      · exact ⟨_, hc.decodes⟩
    rw [List.append_assoc, valid_append_iff ⟨_, hd⟩, valid_append_iff htv] at hP
    exact hP
  case N =>
    rintro p t r hP ⟨⟨cs, hd, -⟩, ht, -⟩ ⟨ds, hds, hno⟩
    obtain ⟨c, w, r', hcn, hw, rfl⟩ : ∃ c w r', IsNewlineChar c ∧ IsSeq w c ∧ t = w ++ r' := by
      rcases ht with ⟨u, v, rfl, hu, hv⟩ | ⟨c, hcn, hc⟩
      · exact ⟨_, u, v, CR, hu, rfl⟩
      · exact ⟨c, t, [], hcn, hc, by simp⟩
    have : Valid (r' ++ r) := by
      rw [List.append_assoc, List.append_assoc, valid_append_iff ⟨_, hd⟩, valid_append_iff ⟨_, hw.decodes⟩] at hP
      exact hP
    obtain ⟨ys, hy⟩ := this
    have e := hds.unique (by simpa using hd.append (Decodes.cons hw hy))
    rw [e] at hno
    exact hno c (by simp) hcn
  case F =>
    rintro p t r p' t' r' hP e ⟨hp1, ht1, hl1⟩ ⟨hp2, ht2, hl2⟩
    obtain ⟨us, hu1, rfl, hu2⟩ := none_units hp1
    obtain ⟨vs, hv1, rfl, hv2⟩ := none_units hp2
    have hP' := hP
    rw [e] at hP'
    rcases ht1 with ⟨u, v, rfl, hu, hv⟩ | ⟨c, hcn, hc⟩ <;> rcases ht2 with ⟨u', v', rfl, hu', hv'⟩ | ⟨c', hcn', hc'⟩
    · obtain ⟨e1, e2, e3⟩ := first_unique (r := v ++ r) (r' := v' ++ r') hu1 hv1 hu hu' CR CR hu2 hv2 (by simpa using e)
      obtain ⟨e4, -, -⟩ := hv.append_inj hv' e3
      exact ⟨e1, by rw [e2, e4]⟩
    · obtain ⟨e1, rfl, e3⟩ := first_unique (r := v ++ r) (r' := r') hu1 hv1 hu hc' CR hcn' hu2 hv2 (by simpa using e)
      exfalso
      rw [List.append_assoc, List.append_assoc, valid_append_iff hu1.valid, valid_append_iff ⟨_, hu.decodes⟩, valid_append_iff ⟨_, hv.decodes⟩] at hP
      obtain ⟨ys, hy⟩ := hP
      exact hl2 hu ys (by rw [← e3]; exact .cons hv hy)
    · obtain ⟨e1, rfl, e3⟩ := first_unique (r := r) (r' := v' ++ r') hu1 hv1 hc hu' hcn CR hu2 hv2 (by simpa using e)
      exfalso
      rw [List.append_assoc, List.append_assoc, valid_append_iff hv1.valid, valid_append_iff ⟨_, hu'.decodes⟩, valid_append_iff ⟨_, hv'.decodes⟩] at hP'
      obtain ⟨ys, hy⟩ := hP'
      exact hl1 hu' ys (by rw [e3]; exact .cons hv' hy)
    · obtain ⟨e1, e2, -⟩ := first_unique (r := r) (r' := r') hu1 hv1 hc hc' hcn hcn' hu2 hv2 (by simpa using e)
      exact ⟨e1, e2⟩
  obtain ⟨rfl, rfl⟩ := hu
  rw [join_eq]
  have : splitLines [] (joinWith nl ps) ⟨npos, false⟩ = .ok (keep false (cuts.map (·.1) ++ [last])) := h2
  rw [g2] at this
  exact this


-- three lines, one of them empty, joined with CR LF
example : splitLines [] (join [[0x61], [], [0x62]] [0x0D, 0x0A]) = .ok [[0x61], [], [0x62]] := by decide +kernel

/-- C118: `split` by a set of code points gives back the list that was joined with the encoding of any of them, if no piece contains one. -/
theorem C118_split_chars (chars : List Char32) (c : Char32) (hc : c ∈ chars) (sep : Str) (hsep : IsSeq sep c) (ps : List Str) (hp : ps ≠ [])
    (h : ∀ p ∈ ps, ∃ cs, Decodes p cs ∧ ∀ x ∈ cs, x ∉ chars) (hs : (join ps sep).length < npos) : splitChars (join ps sep) chars = .ok ps := by
  have hs' : (join ps sep).length < SIZE_MOD := by unfold npos at hs; unfold SIZE_MOD; omega
  have hn0 : 0 < npos := by unfold npos; omega
  have hfalse : ∀ x, u32Contains chars x = false ↔ x ∉ chars := by
    intro x; rw [← u32Contains_iff, Bool.not_eq_true]
  have hg : GoodFinder (fun p t _ => (∃ cs, Decodes p cs ∧ ∀ x ∈ cs, x ∉ chars) ∧ ∃ c ∈ chars, IsSeq t c)
      (fun s => ∃ cs, Decodes s cs ∧ ∀ x ∈ cs, x ∉ chars) Valid (fun s => do let r ← findFirstOf s chars; .ok r.1) := by
    have := goodFinder_where (u32Contains chars)
    simp only [hfalse, u32Contains_iff] at this
    exact this
  have hvs : Valid sep := ⟨_, hsep.decodes⟩
  have hv : Valid (joinWith sep ps) := valid_join hvs ps fun p hp => by obtain ⟨cs, hd, -⟩ := h p hp; exact ⟨cs, hd⟩
  have hc' := piece_count hsep.ne_nil ps hp
  rw [join_eq] at hs hs' ⊢
  obtain ⟨cuts, last, h1, h2⟩ := splitWhere_spec hg false npos (joinWith sep ps) hs' hv hn0
  obtain ⟨cuts', last', g1, g2⟩ := splits_join (sep := sep)
    (first := fun p t _ => (∃ cs, Decodes p cs ∧ ∀ x ∈ cs, x ∉ chars) ∧ ∃ c ∈ chars, IsSeq t c)
    (no := fun s => ∃ cs, Decodes s cs ∧ ∀ x ∈ cs, x ∉ chars) ps hp npos (by omega) (fun p qs _ hpm _ => ⟨h p hpm, c, hc, hsep⟩) h
  have hu := cuts_unique (P := Valid) ?F ?N ?T hv h1 g1
  case T =>
    rintro p t r hP ⟨⟨cs, hd, -⟩, d, -, ht⟩
    rw [List.append_assoc, valid_append_iff ⟨_, hd⟩, valid_append_iff ⟨_, ht.decodes⟩] at hP
    exact hP
  case N =>
    rintro p t r hP ⟨⟨cs, hd, -⟩, d, hdm, ht⟩ ⟨ds, hds, hno⟩
    rw [List.append_assoc, valid_append_iff ⟨_, hd⟩, valid_append_iff ⟨_, ht.decodes⟩] at hP
    obtain ⟨ys, hy⟩ := hP
    have e := hds.unique (by rw [List.append_assoc]; exact hd.append (Decodes.cons ht hy))
    rw [e] at hno
    exact hno d (by simp) hdm
  case F =>
    rintro p t r p' t' r' hP e ⟨hp1, d1, hm1, ht1⟩ ⟨hp2, d2, hm2, ht2⟩
    obtain ⟨us, hu1, rfl, hu2⟩ := none_units (q := (· ∈ chars)) hp1
    obtain ⟨vs, hv1, rfl, hv2⟩ := none_units (q := (· ∈ chars)) hp2
    obtain ⟨e1, e2, -⟩ := first_unique (q := (· ∈ chars)) (r := r) (r' := r') hu1 hv1 ht1 ht2 hm1 hm2 hu2 hv2 (by simpa using e)
    exact ⟨e1, e2⟩
  obtain ⟨rfl, rfl⟩ := hu
  have : splitChars (joinWith sep ps) chars ⟨npos, false⟩ = .ok (keep false (cuts.map (·.1) ++ [last])) := h2
  rw [g2] at this
  exact this

-- "a", "" and "b" joined with U+00E5, split at U+00E5 or ';'
example : splitChars (join [[0x61], [], [0x62]] [0xC3, 0xA5]) [0x3B, 0xE5] = .ok [[0x61], [], [0x62]] := by decide +kernel

/-! ### Lists of arbitrary strings -/

/-- C118: any non-empty list of byte strings can be stored as one string: escape each of them, join them with any control character (here any byte below
0x20), and splitting at that byte and unescaping each piece gives the list back. -/
theorem C118_records (b : UInt8) (hb : b.toNat < 0x20) (xs rs : List Str) (hx : xs ≠ []) (hl : rs.length = xs.length)
    (hf : ∀ x ∈ xs, Fits x) (hr : ∀ r ∈ rs, Fits r) (he : ∀ (i : Nat) (x r : Str), xs[i]? = some x → rs[i]? = some r → escapeJson x = .ok r)
    (hs : (join rs [b]).length < npos) :
    split (join rs [b]) [b] = .ok rs ∧ ∀ (i : Nat) (x r : Str), xs[i]? = some x → rs[i]? = some r → unescape r = .ok x := by
  have hs' : (join rs [b]).length < SIZE_MOD := by unfold npos at hs; unfold SIZE_MOD; omega
  have hr0 : rs ≠ [] := by rintro rfl; exact hx (List.length_eq_zero_iff.mp hl.symm)
  have hc := piece_count (sep := [b]) (by simp) rs hr0
  rw [← join_eq] at hc
  refine ⟨C38_join_split b rs hr0 ?_ npos (by omega) (by unfold npos; omega) hs', ?_⟩
  · intro r hr' hbr
    obtain ⟨i, hi, e⟩ := List.mem_iff_getElem.mp hr'
    have h1 : rs[i]? = some r := by rw [List.getElem?_eq_getElem hi, e]
    have hi' : i < xs.length := by omega
    obtain ⟨r', h2, -, h3⟩ := C56_json xs[i] (hf _ (List.getElem_mem hi'))
    have h4 := he i xs[i] r (List.getElem?_eq_getElem hi') h1
    rw [h2] at h4
    injection h4 with h4
    subst h4
    have := h3 b hbr
    omega
  · intro i x r h1 h2
    exact C57_roundtrip x r (hf x (List.mem_of_getElem? h1)) (hr r (List.mem_of_getElem? h2)) (he i x r h1 h2)

-- the strings "a,\n" and "\"" (with a line break and a quote in them), stored as two lines
example : escapeJson [0x61, 0x0A] = .ok [0x61, 0x5C, 0x6E] ∧ escapeJson [0x22] = .ok [0x5C, 0x22] ∧
    split (join [[0x61, 0x5C, 0x6E], [0x5C, 0x22]] [0x0A]) [0x0A] = .ok [[0x61, 0x5C, 0x6E], [0x5C, 0x22]] ∧
    unescape [0x61, 0x5C, 0x6E] = .ok [0x61, 0x0A] ∧ unescape [0x5C, 0x22] = .ok [0x22] := by decide +kernel

theorem noNewline_printable : ∀ u : Str, (∀ b ∈ u, 0x20 ≤ b.toNat ∧ b.toNat < 0x80) → NoNewline u
  | [], _ => ⟨[], .nil, by simp⟩
  | b :: u, h => by
    obtain ⟨cs, h1, h2⟩ := noNewline_printable u fun x hx => h x (List.mem_cons_of_mem _ hx)
    have hb := h b List.mem_cons_self
    have hn : (UInt32.ofNat b.toNat).toNat = b.toNat := by
      rw [UInt32.toNat_ofNat']; have := b.toNat_lt; omega
    refine ⟨UInt32.ofNat b.toNat :: cs, .cons (u := [b]) (.one hb.2 hn) h1, ?_⟩
    intro x hx
    rcases List.mem_cons.mp hx with rfl | hx
    · intro hn'
      rcases hn' with e | e | e | e | e | e | e <;> (rw [e] at hn; simp at hn; omega)
    · exact h2 x hx

theorem NoNewline.append {p q : Str} (h1 : NoNewline p) (h2 : NoNewline q) : NoNewline (p ++ q) := by
  obtain ⟨cs, a, b⟩ := h1
  obtain ⟨ds, c, d⟩ := h2
  exact ⟨cs ++ ds, a.append c, fun x hx => (List.mem_append.mp hx).elim (b x) (d x)⟩

theorem noNewline_escaped (x : List Char32) (h : ∀ c ∈ x, c.toNat ≤ 0x10FFFF) (hn : ∀ c ∈ x, c ≠ 0x85 ∧ c ≠ 0x2028 ∧ c ≠ 0x2029) :
    NoNewline (jsonEscaped (x.flatMap encodeUtf8)) := by
  induction x with
  | nil => exact ⟨[], .nil, by simp⟩
  | cons c x ih =>
    rw [List.flatMap_cons, jsonEscaped_append]
    refine NoNewline.append ?_ (ih (fun d hd => h d (List.mem_cons_of_mem _ hd)) fun d hd => hn d (List.mem_cons_of_mem _ hd))
    have hc := encodeUtf8_seq c (h c List.mem_cons_self)
    obtain ⟨n1, n2, n3⟩ := hn c List.mem_cons_self
    by_cases h8 : c.toNat < 0x80
    · have e : encodeUtf8 c = [UInt8.ofNat c.toNat] := by
        rw [encodeUtf8_rfc c (by omega), rfcEncode, if_pos h8]
      have hb : (UInt8.ofNat c.toNat).toNat < 0x80 := by rw [UInt8.toNat_ofNat']; omega
      rw [e]
      have : jsonEscaped [UInt8.ofNat c.toNat] = jsonByte (UInt8.ofNat c.toNat) := by simp [jsonEscaped]
      rw [this]
      exact noNewline_printable _ fun y hy => ⟨jsonByte_printable _ y hy, jsonByte_ascii _ hb y hy⟩
    · rcases seq_ascii_or hc with ⟨b, e, hb⟩ | hh
      · exfalso
        have h1 : IsSeq [b] (UInt32.ofNat b.toNat) := .one hb (by rw [UInt32.toNat_ofNat']; have := b.toNat_lt; omega)
        rw [e] at hc
        have h2 := (hc.append_inj h1 (s := []) (t := []) rfl).2.1
        rw [h2, UInt32.toNat_ofNat'] at h8
        omega
      · rw [jsonEscaped_high hh]
        refine ⟨[c], hc.decodes, ?_⟩
        intro y hy
        rw [List.mem_singleton] at hy
        subst hy
        rintro (e | e | e | e | e | e | e)
        · rw [e] at h8; exact h8 (by decide)
        · rw [e] at h8; exact h8 (by decide)
        · rw [e] at h8; exact h8 (by decide)
        · rw [e] at h8; exact h8 (by decide)
        · exact n1 e
        · exact n2 e
        · exact n3 e

/-- C118: any non-empty list of well-formed texts without U+0085, U+2028 and U+2029 can be stored as the lines of one text, ended by any newline:
`split_lines` gives the escaped texts back, and unescaping them the texts. -/
theorem C118_lines (nl : Str) (hnl : IsNewline nl) (xs rs : List Str) (hx : xs ≠ []) (hl : rs.length = xs.length)
    (hw : ∀ x ∈ xs, WellFormed x) (hn : ∀ x ∈ xs, ∀ c ∈ [0x85, 0x2028, 0x2029], contains x c = .ok false)
    (hf : ∀ x ∈ xs, Fits x) (hr : ∀ r ∈ rs, Fits r) (he : ∀ (i : Nat) (x r : Str), xs[i]? = some x → rs[i]? = some r → escapeJson x = .ok r)
    (hs : (join rs nl).length < npos) :
    splitLines [] (join rs nl) = .ok rs ∧ ∀ (i : Nat) (x r : Str), xs[i]? = some x → rs[i]? = some r → unescape r = .ok x := by
  have hr0 : rs ≠ [] := by rintro rfl; exact hx (List.length_eq_zero_iff.mp hl.symm)
  refine ⟨C118_split_lines nl hnl rs hr0 ?_ hs, ?_⟩
  · intro r hr'
    obtain ⟨i, hi, e⟩ := List.mem_iff_getElem.mp hr'
    have h1 : rs[i]? = some r := by rw [List.getElem?_eq_getElem hi, e]
    have hi' : i < xs.length := by omega
    have hm := List.getElem_mem hi'
    have h4 := he i xs[i] r (List.getElem?_eq_getElem hi') h1
    rw [C56_exact _ (hf _ hm)] at h4
    injection h4 with h4
    obtain ⟨x, h5, h6⟩ := wellFormed_list (hw _ hm)
    have hd : Decodes xs[i] x := by
      rw [h6]
      clear h6 h4
      induction x with
      | nil => exact .nil
      | cons c x ih =>
        rw [List.flatMap_cons]
        exact .cons (encodeUtf8_seq c (h5 c List.mem_cons_self)) (ih fun d hd => h5 d (List.mem_cons_of_mem _ hd))
    rw [← h4, h6]
    refine noNewline_escaped x h5 ?_
    have h7 : ∀ c ∈ ([0x85, 0x2028, 0x2029] : List Char32), c ∉ x := by
      intro c hc hcx
      have h8 := hn _ hm c hc
      rw [C16_contains_valid _ x hd c] at h8
      injection h8 with h8
      exact of_decide_eq_false h8 hcx
    intro c hc
    refine ⟨?_, ?_, ?_⟩ <;> (rintro rfl; exact h7 _ (by simp) hc)
  · intro i x r h1 h2
    exact C57_roundtrip x r (hf x (List.mem_of_getElem? h1)) (hr r (List.mem_of_getElem? h2)) (he i x r h1 h2)

-- a text with a line feed in it is stored as one line; one with U+2028 is not, because `escape` leaves U+2028 as it is
example : escapeJson [0x61, 0x0A] = .ok [0x61, 0x5C, 0x6E] ∧
    splitLines [] (join [[0x61, 0x5C, 0x6E], [0x62]] [0x0A]) = .ok [[0x61, 0x5C, 0x6E], [0x62]] ∧
    escapeJson [0x61, 0xE2, 0x80, 0xA8] = .ok [0x61, 0xE2, 0x80, 0xA8] ∧
    splitLines [] (join [[0x61, 0xE2, 0x80, 0xA8], [0x62]] [0x0A]) = .ok [[0x61], [], [0x62]] := by decide +kernel

end Ystring
