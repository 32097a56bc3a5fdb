import Verif.Proofs.Headers
/-
Lemmas for C93: reading the Unicode database.
-/
namespace Ystring
open Spec Gen

theorem fileLines_cons {line : Txt} (h : '\n' ∉ line) (text : Txt) : fileLines (line ++ '\n' :: text) = (line ++ ['\n']) :: fileLines text := by
  induction line with
  | nil => simp [fileLines]
  | cons c cs ih =>
    rw [List.mem_cons, not_or] at h
    rw [List.cons_append, fileLines, if_neg (Ne.symm h.1), ih h.2]
    rfl

/-! ### Numbers -/

theorem hexDigitOf_mem {c : Char} {d : Nat} (h : hexDigitOf c = some d) : c ∈ t!"0123456789ABCDEFabcdef" := by
  unfold hexDigitOf at h
  by_cases h1 : c ∈ t!"0123456789ABCDEF"
  · revert h1
    have : ∀ c ∈ t!"0123456789ABCDEF", c ∈ t!"0123456789ABCDEFabcdef" := by decide
    exact this c
  · by_cases h2 : c ∈ t!"0123456789abcdef"
    · have : ∀ c ∈ t!"0123456789abcdef", c ∈ t!"0123456789ABCDEFabcdef" := by decide
      exact this c h2
    · rw [List.idxOf?_eq_none_iff.mpr h1, List.idxOf?_eq_none_iff.mpr h2] at h
      cases h

theorem hexVal?_of {c : Char} {d : Nat} (h : hexDigitOf c = some d) : hexVal? c = some d := by
  have : ∀ c ∈ t!"0123456789ABCDEFabcdef", hexVal? c = hexDigitOf c := by decide
  rw [this c (hexDigitOf_mem h), h]

theorem hexDigit_space {c : Char} {d : Nat} (h : hexDigitOf c = some d) : isSpace c = false ∧ c ≠ '<' ∧ c ≠ ';' := by
  have : ∀ c ∈ t!"0123456789ABCDEFabcdef", isSpace c = false ∧ c ≠ '<' ∧ c ≠ ';' := by decide
  exact this c (hexDigitOf_mem h)

theorem hexFrom_mem {s : Txt} {n m : Nat} (h : hexFrom n s = some m) : ∀ c ∈ s, ∃ d, hexDigitOf c = some d := by
  induction s generalizing n with
  | nil => simp
  | cons c cs ih =>
    rw [hexFrom] at h
    intro x hx
    cases hd : hexDigitOf c with
    | none => rw [hd] at h; cases h
    | some d =>
      rw [hd] at h
      rcases List.mem_cons.mp hx with rfl | hx
      · exact ⟨d, hd⟩
      · exact ih h x hx

theorem hexFrom_fold {s : Txt} {n m : Nat} (h : hexFrom n s = some m) : s.foldl (fun n c => 16 * n + (hexVal? c).getD 0) n = m := by
  induction s generalizing n with
  | nil => simpa [hexFrom] using h
  | cons c cs ih =>
    rw [hexFrom] at h
    cases hd : hexDigitOf c with
    | none => rw [hd] at h; cases h
    | some d =>
      rw [hd] at h
      rw [List.foldl_cons, hexVal?_of hd]
      exact ih h

theorem hexValue_parts {s : Txt} {n : Nat} (h : hexValue s = some n) : s ≠ [] ∧ (∀ c ∈ s, ∃ d, hexDigitOf c = some d) ∧ hexFrom 0 s = some n := by
  unfold hexValue at h
  split at h
  · cases h
  · rename_i h0; exact ⟨h0, hexFrom_mem h, h⟩

theorem rstrip_none {s : Txt} (h : ∀ c, s.getLast? = some c → isSpace c = false) : rstrip s = s := by
  rcases List.eq_nil_or_concat s with rfl | ⟨t, c, rfl⟩
  · rfl
  · rw [List.concat_eq_append]; exact rstrip_last (h c (by simp))

theorem rstrip_newline (s : Txt) : rstrip (s ++ ['\n']) = rstrip s := by
  have : isSpace '\n' = true := by decide
  unfold rstrip; simp [this]

theorem lstrip_none {s : Txt} (h : ∀ c, s.head? = some c → isSpace c = false) : lstrip s = s := by
  cases s with
  | nil => rfl
  | cons c cs => unfold lstrip; rw [List.dropWhile_cons, if_neg (by simp [h c rfl])]

theorem strip_hex {s : Txt} {n : Nat} (h : hexValue s = some n) : strip s = s := by
  obtain ⟨_, h1, _⟩ := hexValue_parts h
  have hs : ∀ c ∈ s, isSpace c = false := fun c hc => (hexDigit_space (h1 c hc).choose_spec).1
  unfold strip
  rw [lstrip_none (fun c hc => hs c (List.mem_of_mem_head? hc)), rstrip_none (fun c hc => hs c (List.mem_of_getLast? hc))]

theorem strip_hex_newline {s : Txt} {n : Nat} (h : hexValue s = some n) : strip (s ++ ['\n']) = s := by
  obtain ⟨h0, h1, _⟩ := hexValue_parts h
  have hs : ∀ c ∈ s, isSpace c = false := fun c hc => (hexDigit_space (h1 c hc).choose_spec).1
  unfold strip
  rw [lstrip_none, rstrip_newline, rstrip_none (fun c hc => hs c (List.mem_of_getLast? hc))]
  intro c hc
  cases s with
  | nil => exact absurd rfl h0
  | cons x xs => exact hs c (by simp at hc; simp [hc])

theorem pyInt16_hex {s : Txt} {n : Nat} (h : hexValue s = some n) : pyInt16 s = .ok n := by
  obtain ⟨h0, h1, h2⟩ := hexValue_parts h
  unfold pyInt16
  simp only [strip_hex h]
  rw [if_pos]
  · rw [hexFrom_fold h2]
  · refine ⟨h0, ?_⟩
    rw [List.all_eq_true]
    intro c hc
    obtain ⟨d, hd⟩ := h1 c hc
    rw [hexVal?_of hd]; rfl

/-! ### Fields -/

/-- The fields of a line that is read, with its end. -/
theorem split_line (f0 f1 f2 f3 f4 f5 f6 f7 f8 f9 f10 f11 f12 f13 f14 e : Txt) (he : ';' ∉ e)
    (h : ∀ f ∈ [f0, f1, f2, f3, f4, f5, f6, f7, f8, f9, f10, f11, f12, f13, f14], ';' ∉ f ∧ '\n' ∉ f) :
    splitChar ';' (joinTxt [';'] [f0, f1, f2, f3, f4, f5, f6, f7, f8, f9, f10, f11, f12, f13, f14] ++ e) =
      [f0, f1, f2, f3, f4, f5, f6, f7, f8, f9, f10, f11, f12, f13, f14 ++ e] := by
  have : joinTxt [';'] [f0, f1, f2, f3, f4, f5, f6, f7, f8, f9, f10, f11, f12, f13, f14] ++ e =
      joinTxt [';'] [f0, f1, f2, f3, f4, f5, f6, f7, f8, f9, f10, f11, f12, f13, f14 ++ e] := by simp [joinTxt]
  rw [this]
  refine splitChar_join ?_ (by simp)
  intro l hl
  simp only [List.mem_cons, List.not_mem_nil, or_false] at hl
  simp only [List.mem_cons, List.not_mem_nil, or_false] at h
  rcases hl with hl | hl | hl | hl | hl | hl | hl | hl | hl | hl | hl | hl | hl | hl | rfl
  all_goals first
    | exact (h l (by simp [hl])).1
    | (rw [List.mem_append, not_or]; exact ⟨(h f14 (by simp)).1, he⟩)

theorem caseLine_field {f : Txt} {x : Option Nat} (h : IsOptional f x) {f0 : Txt} {n : Nat} (h0 : hexValue f0 = some n) {parts : List Txt} {back : Nat}
    {g : Txt} (hg : g = f ∨ g = f ++ ['\n']) (hp : itemBack parts back = .ok g) (hq : item parts 0 = .ok f0) {line : Txt} (hs : splitChar ';' line = parts) :
    caseLine back line = .ok (x.map (fun w => (n, w))) := by
  have hstrip : strip g = f := by
    cases x with
    | none =>
      have h' : f = [] := h
      subst h'
      rcases hg with rfl | rfl
      · rfl
      · decide
    | some w =>
      rcases hg with rfl | rfl
      · exact strip_hex h
      · exact strip_hex_newline h
  unfold caseLine
  simp only [hs, hp, bind, Except.bind, hstrip, hq]
  cases x with
  | none =>
    have h' : f = [] := h
    rw [if_pos h']; rfl
  | some w =>
    rw [if_neg (hexValue_parts h).1, pyInt16_hex h0, pyInt16_hex h]; rfl

theorem mapM_ok {α β : Type} {f : α → Except PyErr β} {g : α → β} {l : List α} (h : ∀ x ∈ l, f x = .ok (g x)) : l.mapM f = .ok (l.map g) := by
  induction l with
  | nil => rfl
  | cons x xs ih =>
    rw [List.mapM_cons, h x (by simp), ih (fun y hy => h y (by simp [hy]))]
    rfl

/-- Reading a database line by line. -/
theorem mapM_database {β : Type} {f : Txt → Except PyErr β} {g : Entry → β} (h : ∀ line e, IsLine line e → f (line ++ ['\n']) = .ok (g e))
    {es : List Entry} {text : Txt} (hd : Database es text) : (fileLines text).mapM f = .ok (es.map g) := by
  induction hd with
  | nil => rfl
  | cons hl _ ih =>
    rename_i e line es text _
    have hn : '\n' ∉ line := by
      obtain ⟨f0, f1, f2, f3, f4, f5, f6, f7, f8, f9, f10, f11, f12, f13, f14, rfl, hf, _⟩ := hl
      simp only [joinedBy_eq, joinTxt, List.mem_append, List.mem_singleton, not_or]
      simp only [List.mem_cons, List.not_mem_nil, or_false, forall_eq_or_imp, forall_eq] at hf
      have hsemi : '\n' ≠ ';' := by decide
      simp only [hf, hsemi, not_false_eq_true, and_self]
    rw [fileLines_cons hn, List.mapM_cons, h line e hl, ih]
    rfl

theorem caseLine_upper (line : Txt) (e : Entry) (h : IsLine line e) : caseLine 3 (line ++ ['\n']) = .ok (e.upper.map (fun w => (e.id, w))) := by
  obtain ⟨f0, f1, f2, f3, f4, f5, f6, f7, f8, f9, f10, f11, f12, f13, f14, rfl, hf, h0, _, _, hu, _, _⟩ := h
  rw [joinedBy_eq]
  exact caseLine_field hu h0 (Or.inl rfl) rfl rfl (split_line _ _ _ _ _ _ _ _ _ _ _ _ _ _ _ _ (by decide) hf)

theorem caseLine_lower (line : Txt) (e : Entry) (h : IsLine line e) : caseLine 2 (line ++ ['\n']) = .ok (e.lower.map (fun w => (e.id, w))) := by
  obtain ⟨f0, f1, f2, f3, f4, f5, f6, f7, f8, f9, f10, f11, f12, f13, f14, rfl, hf, h0, _, _, _, hl, _⟩ := h
  rw [joinedBy_eq]
  exact caseLine_field hl h0 (Or.inl rfl) rfl rfl (split_line _ _ _ _ _ _ _ _ _ _ _ _ _ _ _ _ (by decide) hf)

theorem caseLine_title (line : Txt) (e : Entry) (h : IsLine line e) : caseLine 1 (line ++ ['\n']) = .ok (e.title.map (fun w => (e.id, w))) := by
  obtain ⟨f0, f1, f2, f3, f4, f5, f6, f7, f8, f9, f10, f11, f12, f13, f14, rfl, hf, h0, _, _, _, _, ht⟩ := h
  rw [joinedBy_eq]
  exact caseLine_field ht h0 (Or.inr rfl) rfl rfl (split_line _ _ _ _ _ _ _ _ _ _ _ _ _ _ _ _ (by decide) hf)

theorem classOf_category {k : Nat} {f : Txt} (h1 : 1 ≤ k) (h : CATEGORIES[k - 1]? = some f) : classOf f = .ok k := by
  have hk : k - 1 < 30 := by
    have := (List.getElem?_eq_some_iff.mp h).1
    exact this
  have key : ∀ i : Fin 30, ∀ f, CATEGORIES[i.val]? = some f → classOf f = .ok (i.val + 1) := by
    intro i f hf
    have : ∀ i : Fin 30, ∃ g, CATEGORIES[i.val]? = some g ∧ g ∈ CLASS_KEYS ∧ CLASS_KEYS.idxOf g = i.val := by
      intro i
      have hd : ∀ i : Fin 30, (CATEGORIES.getD i.val []) ∈ CLASS_KEYS ∧ CLASS_KEYS.idxOf (CATEGORIES.getD i.val []) = i.val ∧
          CATEGORIES[i.val]? = some (CATEGORIES.getD i.val []) := by decide +kernel
      exact ⟨_, (hd i).2.2, (hd i).1, (hd i).2.1⟩
    obtain ⟨g, hg, hm, hi⟩ := this i
    rw [hg] at hf
    cases hf
    unfold classOf
    rw [if_pos hm, hi]
  have := key ⟨k - 1, hk⟩ f h
  rw [this]
  show Except.ok (k - 1 + 1) = _
  rw [Nat.sub_add_cancel h1]

theorem classLine_entry (line : Txt) (e : Entry) (h : IsLine line e) : classLine (line ++ ['\n']) = .ok (e.id, e.category) := by
  obtain ⟨f0, f1, f2, f3, f4, f5, f6, f7, f8, f9, f10, f11, f12, f13, f14, rfl, hf, h0, hc, _⟩ := h
  unfold classLine
  rw [joinedBy_eq, split_line _ _ _ _ _ _ _ _ _ _ _ _ _ _ _ _ (by decide) hf]
  show (do let n ← pyInt16 f0; let k ← classOf f2; Except.ok (n, k)) = _
  rw [pyInt16_hex h0, classOf_category hc.1 hc.2]
  rfl

theorem wordsFrom_nospace {w key : Txt} (h : ∀ c ∈ key, isSpace c = false) (s : Txt) : wordsFrom w (key ++ s) = wordsFrom (w ++ key) s := by
  induction key generalizing w with
  | nil => simp
  | cons c cs ih =>
    rw [List.cons_append, wordsFrom, if_neg (by simp [h c (by simp)]), ih (fun d hd => h d (by simp [hd]))]
    simp

theorem words_join {ws : List Txt} (h : ∀ w ∈ ws, w ≠ [] ∧ ∀ c ∈ w, isSpace c = false) : words (joinTxt [' '] ws) = ws := by
  unfold words
  induction ws with
  | nil => rfl
  | cons w ws ih =>
    have hw := h w (by simp)
    cases ws with
    | nil =>
      rw [joinTxt, ← List.append_nil w, wordsFrom_nospace hw.2]
      simp [wordsFrom, hw.1]
    | cons v vs =>
      rw [joinTxt, List.append_assoc, wordsFrom_nospace hw.2, List.singleton_append, wordsFrom, if_pos (by decide), if_neg (by simp [hw.1]),
        ih (fun x hx => h x (by simp [hx]))]
      · rfl
      · simp

theorem mapM_hex {ws : List Txt} {ns : List Nat} (h : ws.map hexValue = ns.map some) : ws.mapM pyInt16 = .ok ns := by
  induction ws generalizing ns with
  | nil => cases ns with
    | nil => rfl
    | cons n ns => simp at h
  | cons w ws ih => cases ns with
    | nil => simp at h
    | cons n ns =>
      rw [List.map_cons, List.map_cons, List.cons.injEq] at h
      rw [List.mapM_cons, pyInt16_hex h.1, ih h.2]; rfl

theorem strip_line {line : Txt} {e : Entry} (h : IsLine line e) : strip (line ++ ['\n']) = line := by
  obtain ⟨f0, f1, f2, f3, f4, f5, f6, f7, f8, f9, f10, f11, f12, f13, f14, rfl, hf, h0, _, _, _, _, ht⟩ := h
  obtain ⟨h1, h2, _⟩ := hexValue_parts h0
  rw [joinedBy_eq]
  unfold strip
  rw [lstrip_none, rstrip_newline, rstrip_none]
  · intro c hc
    generalize hp : [f0, f1, f2, f3, f4, f5, f6, f7, f8, f9, f10, f11, f12, f13] = ps at *
    have hj : joinTxt [';'] [f0, f1, f2, f3, f4, f5, f6, f7, f8, f9, f10, f11, f12, f13, f14] =
        joinTxt [';'] [f0, f1, f2, f3, f4, f5, f6, f7, f8, f9, f10, f11, f12, f13] ++ [';'] ++ f14 := by simp [joinTxt]
    rw [hj] at hc
    cases ho : e.title with
    | none =>
      have : f14 = [] := by rw [ho] at ht; exact ht
      rw [this, List.append_nil, List.getLast?_concat] at hc
      cases hc; decide
    | some w =>
      rw [ho] at ht
      obtain ⟨g1, g2, _⟩ := hexValue_parts ht
      rw [List.getLast?_append, List.getLast?_eq_some_getLast g1] at hc
      simp only [Option.some_or, Option.some.injEq] at hc
      rw [← hc]
      obtain ⟨d, hd⟩ := g2 _ (List.getLast_mem g1)
      exact (hexDigit_space hd).1
  · intro c hc
    cases f0 with
    | nil => exact absurd rfl h1
    | cons x xs =>
      simp only [joinTxt, List.cons_append, List.head?_cons, Option.some.injEq] at hc
      obtain ⟨d, hd⟩ := h2 x (by simp)
      rw [← hc]; exact (hexDigit_space hd).1

/-- What the script for the normalization tables uses of an entry. -/
def decompOf (e : Entry) : DecompLine := ⟨e.id, e.tagged, if e.tagged then [] else e.decomposition⟩

theorem decompLine_entry (line : Txt) (e : Entry) (h : IsLine line e) : decompLine (line ++ ['\n']) = .ok (some (decompOf e)) := by
  have hs := strip_line h
  obtain ⟨f0, f1, f2, f3, f4, f5, f6, f7, f8, f9, f10, f11, f12, f13, f14, rfl, hf, h0, _, hd, _⟩ := h
  have hsplit := split_line f0 f1 f2 f3 f4 f5 f6 f7 f8 f9 f10 f11 f12 f13 f14 [] (by simp) hf
  rw [List.append_nil, List.append_nil] at hsplit
  rw [joinedBy_eq] at hs ⊢
  unfold decompLine
  simp only [hs, hsplit]
  rw [if_neg (by simp [joinTxt])]
  have hi : item [f0, f1, f2, f3, f4, f5, f6, f7, f8, f9, f10, f11, f12, f13, f14] 0 = .ok f0 := rfl
  have hi5 : item [f0, f1, f2, f3, f4, f5, f6, f7, f8, f9, f10, f11, f12, f13, f14] 5 = .ok f5 := rfl
  simp only [hi, hi5, bind, Except.bind, pyInt16_hex h0]
  unfold IsDecomposition at hd
  unfold decompOf
  cases ht : e.tagged with
  | true =>
    rw [ht, if_pos rfl] at hd
    obtain ⟨s, rfl⟩ := hd
    rfl
  | false =>
    rw [ht, if_neg (by decide)] at hd
    obtain ⟨ws, rfl, hw⟩ := hd
    rw [joinedBy_eq]
    have hws : ∀ w ∈ ws, w ≠ [] ∧ ∀ c ∈ w, ∃ d, hexDigitOf c = some d := by
      intro w hm
      have : hexValue w ∈ e.decomposition.map some := by rw [← hw]; exact List.mem_map_of_mem hm
      obtain ⟨n, _, hn⟩ := List.mem_map.mp this
      obtain ⟨h1, h2, _⟩ := hexValue_parts hn.symm
      exact ⟨h1, h2⟩
    cases ws with
    | nil =>
      have : e.decomposition = [] := by
        cases hdc : e.decomposition with
        | nil => rfl
        | cons a b => rw [hdc] at hw; simp at hw
      rw [this]; rfl
    | cons w ws =>
      obtain ⟨hw0, hwd⟩ := hws w (by simp)
      obtain ⟨x, xs, rfl⟩ := List.exists_cons_of_ne_nil hw0
      have hj : ∃ ys, joinTxt [' '] ((x :: xs) :: ws) = x :: ys := by cases ws <;> exact ⟨_, rfl⟩
      obtain ⟨ys, hys⟩ := hj
      obtain ⟨d, hxd⟩ := hwd x (by simp)
      rw [words_join (fun w hm => ⟨(hws w hm).1, fun c hc => (hexDigit_space ((hws w hm).2 c hc).choose_spec).1⟩), mapM_hex hw,
        if_neg (by rw [hys]; simp), if_neg (by rw [hys]; simp [(hexDigit_space hxd).2.1])]
      rfl

end Ystring
