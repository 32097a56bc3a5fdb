import Verif.Proofs.WidthCI
/-
Lemmas for C110, fifth part: escape_json and unescape.
-/
namespace Ystring.Wd

variable {W : Nat}

theorem stdFindIf_le {α : Type} (p : α → Bool) (l : List α) : stdFindIf p l ≤ l.length := by
  induction l with
  | nil => simp [stdFindIf]
  | cons b t ih => rw [stdFindIf]; split <;> simp; omega

theorem sim_escapeJsonLoop (s : Str) (hW : Fits W s.length) (fuel : Nat) : ∀ (o : Nat) (r : Str),
    Sim (fun a b => a = b) (Ystring.escapeJsonLoop s fuel o r) (escapeJsonLoop W s fuel o r) := by
  induction fuel with
  | zero => intro o r; exact rfl
  | succ fuel ih =>
    intro o r
    unfold Ystring.escapeJsonLoop escapeJsonLoop
    refine Sim.bindSame fun m hm => ?_
    have hl : m.length ≤ 1 := by
      unfold findFirstEscapableChar at hm
      split at hm
      · cases hm
      · rw [← Except.ok.inj hm]; simp only; split <;> omega
    simp only
    split
    · rcases h : s[m.offset]? with _ | c
      · exact Sim.error
      · have h1 : m.offset < s.length := by
          rcases Nat.lt_or_ge m.offset s.length with h1 | h1
          · exact h1
          · rw [List.getElem?_eq_none h1] at h; cases h
        obtain ⟨e1, e2⟩ := stop_within hW (m := m) (by omega)
        simp only [e1, e2]
        exact ih _ _
    · exact Sim.ok rfl

theorem findFirstByteWhere_le (s : Str) (a b : Nat) (p : UInt8 → Bool) : findFirstByteWhere s a b p ≤ max s.length b := by
  unfold findFirstByteWhere
  simp only
  split
  · rename_i h
    simp only [List.length_take, List.length_drop] at h
    omega
  · omega

theorem checkLength_le {a b k : Nat} {m : Subrange} (h : checkLength a b k = .ok m) : m.offset = a ∧ m.length = b - a := by
  unfold checkLength at h
  split at h
  · cases h
  · rw [← Except.ok.inj h]; exact ⟨rfl, rfl⟩

theorem findFirstEscapedChar_le {s : Str} {o : Nat} {m : Subrange} (h : findFirstEscapedChar s o = .ok m) :
    o ≤ m.offset ∧ m.offset ≤ s.length ∧ m.offset + m.length ≤ s.length + 10 := by
  unfold findFirstEscapedChar at h
  split at h
  · cases h
  · rename_i ho
    have h1 := stdFindIf_le (· == 0x5C) (s.drop o)
    simp only [List.length_drop] at h1
    simp only at h
    have hx : ∀ {e k : Nat} {p : UInt8 → Bool} {a : Nat}, e ≤ s.length + 10 →
        checkLength (o + stdFindIf (· == 0x5C) (s.drop o)) (findFirstByteWhere s a e p) k = .ok m →
        o ≤ m.offset ∧ m.offset ≤ s.length ∧ m.offset + m.length ≤ s.length + 10 := by
      intro e k p a he hc
      obtain ⟨h2, h3⟩ := checkLength_le hc
      have := findFirstByteWhere_le s a e p
      omega
    unfold findEndOfHexSequence findEndOfOctSequence at h
    split at h
    · rename_i h2
      rw [← Except.ok.inj h]
      unfold Subrange.atOffset
      simp only
      omega
    · split at h
      · cases h
      · split at h
        · exact hx (by omega) h
        split at h
        · exact hx (by omega) h
        split at h
        · exact hx (by omega) h
        split at h
        · exact hx (by omega) h
        split at h
        · rw [← Except.ok.inj h]; simp only; omega
        · cases h

theorem sim_parseUtf16 (s : Str) (hW : Fits W s.length) (m : Subrange) (hm : m.offset + m.length ≤ s.length + 10) :
    Sim (fun a b => a = b ∧ a.2.offset = m.offset ∧ (a.2.length = m.length ∨ a.2.length = 12)) (Ystring.parseUtf16 s m) (parseUtf16 W s m) := by
  have h1 := hW.fits
  have h2 := hW.most
  have h3 := hW.wide
  unfold Ystring.parseUtf16 parseUtf16
  refine Sim.bindSame fun u _ => Sim.bindSame fun ch _ => ?_
  have e1 : m.stop = m.offset + m.length := by rw [stop64]; exact stop_eq (by omega)
  have e2 : stop W m = m.offset + m.length := stop_eq (by omega)
  simp only [e1, e2, sizeAdd_eq (show m.offset + m.length + 1 < W by omega)]
  have done : ∀ c : Char32, Sim (fun (a b : Char32 × Subrange) => a = b ∧ a.2.offset = m.offset ∧ (a.2.length = m.length ∨ a.2.length = 12))
      (.ok (c, m)) (.ok (c, m)) := fun c => Sim.ok ⟨rfl, rfl, Or.inl rfl⟩
  split
  · exact done _
  · refine Sim.bindSame fun u _ => Sim.bindSame fun m2 _ => ?_
    split
    · exact done _
    · refine Sim.bindSame fun c _ => ?_
      split
      · exact done _
      · refine Sim.bindSame fun ch2 _ => ?_
        split
        · exact done _
        · exact Sim.ok ⟨rfl, rfl, Or.inr rfl⟩

theorem sim_decodeEscaped (s : Str) (hW : Fits W s.length) (m : Subrange) (h0 : m.offset ≤ s.length) (hm : m.offset + m.length ≤ s.length + 10) :
    Sim (fun a b => a = b ∧ a.2.offset = m.offset ∧ (a.2.length = m.length ∨ a.2.length = 12)) (Ystring.decodeEscaped s m) (decodeEscaped W s m) := by
  have h1 := hW.fits
  have h2 := hW.most
  have h3 := hW.wide
  unfold Ystring.decodeEscaped decodeEscaped
  rw [sizeAdd_eq (show m.start + 1 < W by unfold Subrange.start; omega)]
  refine Sim.bindSame fun c _ => ?_
  have done : ∀ c : Char32, Sim (fun (a b : Char32 × Subrange) => a = b ∧ a.2.offset = m.offset ∧ (a.2.length = m.length ∨ a.2.length = 12))
      (.ok (c, m)) (.ok (c, m)) := fun c => Sim.ok ⟨rfl, rfl, Or.inl rfl⟩
  split
  · exact Sim.bindSame fun _ _ => Sim.bindSame fun _ _ => done _
  split
  · exact sim_parseUtf16 s hW m hm
  split
  · exact done _
  split
  · exact done _
  split
  · exact done _
  split
  · exact done _
  split
  · exact done _
  split
  · exact done _
  split
  · exact done _
  split
  · exact Sim.bindSame fun _ _ => Sim.bindSame fun _ _ => done _
  · exact done _

theorem writeAt_ok {b b' t : Str} {i : Nat} (h : writeAt b i t = .ok b') : i + t.length ≤ b.length ∧ b'.length = b.length := by
  unfold writeAt at h
  split at h
  · rename_i h1
    refine ⟨h1, ?_⟩
    rw [← Except.ok.inj h]
    simp; omega
  · cases h

theorem copyIfMoved_ok {b b' : Str} {f l t : Nat} (h : copyIfMoved b f l t = .ok b') : b'.length = b.length ∧ (f = t ∨ t + (l - f) ≤ b.length) := by
  unfold copyIfMoved at h
  split at h
  · unfold copyWithin at h
    split at h
    · rename_i h1
      obtain ⟨h2, h3⟩ := writeAt_ok h
      simp only [List.length_take, List.length_drop] at h2
      exact ⟨h3, Or.inr (by omega)⟩
    · cases h
  · rename_i h1
    rw [← Except.ok.inj h]
    exact ⟨rfl, Or.inl (by simpa using h1)⟩

theorem encodedLength_le (c : Char32) : encodeUtf8Ret c ≤ 4 := by
  unfold encodeUtf8Ret getUtf8EncodedLength
  repeat' split
  all_goals omega

theorem sim_unescapeLoop (fuel : Nat) : ∀ (b : Str) (f t : Nat), Fits W b.length → t ≤ b.length + 4 →
    Sim (fun x y => x = y) (Ystring.unescapeLoop fuel b f t) (unescapeLoop W fuel b f t) := by
  induction fuel with
  | zero => intros; exact rfl
  | succ fuel ih =>
    intro b f t hW ht
    have h1 := hW.fits
    have h2 := hW.most
    have h3 := hW.wide
    unfold Ystring.unescapeLoop unescapeLoop
    refine Sim.bindSame fun m hm => ?_
    obtain ⟨m1, m2, m3⟩ := findFirstEscapedChar_le hm
    refine Sim.bindSame fun b' hb => ?_
    obtain ⟨b1, b2⟩ := copyIfMoved_ok hb
    have e0 : t + (m.start - f) ≤ b.length := by
      unfold Subrange.start at *
      omega
    have e1 : Ystring.sizeSub m.start f = m.start - f := by
      rw [sizeSub64]; exact sizeSub_eq m1 (by unfold Subrange.start; omega)
    have e2 : sizeSub W m.start f = m.start - f := sizeSub_eq m1 (by unfold Subrange.start; omega)
    have e3 : Ystring.sizeAdd t (m.start - f) = t + (m.start - f) := by rw [sizeAdd64]; exact sizeAdd_eq (by omega)
    simp only [e1, e2, e3, sizeAdd_eq (show t + (m.start - f) < W by omega)]
    split
    · exact Sim.ok rfl
    · refine Sim.bind (sim_decodeEscaped b' (by rw [b1]; exact hW) m (by omega) (by omega)) ?_
      rintro ⟨ch, m'⟩ _ ⟨rfl, k1, k2⟩
      simp only at k1 k2 ⊢
      refine Sim.bindSame fun b2 hb2 => ?_
      obtain ⟨w1, w2⟩ := writeAt_ok hb2
      have e4 := encodedLength_le ch
      have e5 : m'.stop = m'.offset + m'.length := by rw [stop64]; exact stop_eq (by omega)
      have e6 : stop W m' = m'.offset + m'.length := stop_eq (by omega)
      have e7 : Ystring.sizeAdd (t + (m.start - f)) (encodeUtf8Ret ch) = t + (m.start - f) + encodeUtf8Ret ch := by
        rw [sizeAdd64]; exact sizeAdd_eq (by omega)
      rw [e5, e6, e7, sizeAdd_eq (by omega)]
      exact ih _ _ _ (by rw [w2, b1]; exact hW) (by omega)

theorem sim_unescape (s : Str) (hW : Fits W s.length) : Wd.unescape W s = Ystring.unescape s := by
  symm
  unfold Ystring.unescape Wd.unescape Ystring.unescapeBuf
  refine Sim.eq (Sim.bind (sim_unescapeLoop _ s 0 0 hW (by omega)) ?_)
  rintro p _ rfl
  exact Sim.same fun _ _ => rfl

theorem sim_escapeJson (s : Str) (hW : Fits W s.length) : Wd.escapeJson W s = Ystring.escapeJson s :=
  (Sim.eq (sim_escapeJsonLoop s hW _ 0 [])).symm

end Ystring.Wd
