import Verif.Props.Slice
import Verif.Props.Safety
/-
Property theorems C79: further laws of `reverse`.
-/
namespace Ystring
open Spec

theorem chars_valid {gs : List Str} (h : ∀ g ∈ gs, IsCharacter g) : Valid gs.flatten := by
  induction gs with
  | nil => exact ⟨[], .nil⟩
  | cons g gs ih =>
    obtain ⟨ds, hd⟩ := ih (fun g hg => h g (by simp [hg]))
    obtain ⟨c, ms, hc, -⟩ := h g (by simp)
    exact ⟨_, hc.append hd⟩

theorem chars_valid' {gs : List Str} (h : ∀ g ∈ gs, Valid g) : Valid gs.flatten := by
  induction gs with
  | nil => exact ⟨[], .nil⟩
  | cons g gs ih =>
    obtain ⟨ds, hd⟩ := ih (fun g hg => h g (by simp [hg]))
    obtain ⟨c, hc⟩ := h g (by simp)
    exact ⟨_, hc.append hd⟩

theorem startsWithMark_append {g t : Str} (hg : IsCharacter g) (ht : Valid t) :
    StartsWithMark (g ++ t) ↔ StartsWithMark g := by
  obtain ⟨c, ms, hc, hm⟩ := hg
  obtain ⟨ds, hd⟩ := ht
  have happ := hc.append hd
  constructor
  · rintro ⟨m, cs, e1, e2⟩
    have := e1.unique happ
    simp at this
    exact ⟨c, ms, hc, this.1 ▸ e2⟩
  · rintro ⟨m, cs, e1, e2⟩
    have := e1.unique hc
    simp at this
    exact ⟨c, ms ++ ds, happ, this.1 ▸ e2⟩

/-- The characters of a concatenation, if the second string does not begin with a mark. -/
theorem characters_append {s t : Str} {gs hs : List Str} (h : Characters s gs) (h' : Characters t hs)
    (hm : ¬ StartsWithMark t) : Characters (s ++ t) (gs ++ hs) := by
  refine ⟨by rw [List.flatten_append, h.1, h'.1], ?_, ?_⟩
  · intro g hg
    rcases List.mem_append.mp hg with hg | hg
    · exact h.2.1 g hg
    · exact h'.2.1 g hg
  · intro g hg
    cases gs with
    | nil => exact h'.2.2 g (by simpa using hg)
    | cons a gs =>
      simp at hg
      rcases hg with hg | hg
      · exact h.2.2 g (by simpa using hg)
      · cases hs with
        | nil => simp at hg
        | cons b hs =>
          rcases List.mem_cons.mp hg with rfl | hg
          · intro hb
            apply hm
            rw [← h'.1, List.flatten_cons, startsWithMark_append (h'.2.1 g (by simp))]
            · exact hb
            · exact chars_valid (fun x hx => h'.2.1 x (by simp [hx]))
          · exact h'.2.2 g (by simpa using hg)

/-- C79: if `t` does not begin with a combining mark, the reverse of `s + t` is the reverse of `t` followed by the
reverse of `s`. -/
theorem C79_concat (s t : Str) (hs : Valid s) (ht : Valid t) (hm : ¬ StartsWithMark t)
    (hl : s.length + t.length < SIZE_MOD) :
    ∃ a b, reverse s = .ok a ∧ reverse t = .ok b ∧ reverse (s ++ t) = .ok (b ++ a) := by
  obtain ⟨gs, hg⟩ := ((C24_segmentation s).1).mp hs
  obtain ⟨hs', hg'⟩ := ((C24_segmentation t).1).mp ht
  refine ⟨_, _, (C33_reverse s gs hg (by omega)).1, (C33_reverse t hs' hg' (by omega)).1, ?_⟩
  rw [(C33_reverse _ _ (characters_append hg hg' hm) (by simpa using hl)).1]
  simp

/-- The condition of `C79_concat` is needed: "a" + U+0301 is one character. -/
theorem C79_concat_mark : reverse [0x61] = .ok [0x61] ∧ reverse [0xCC, 0x81] = .ok [0xCC, 0x81] ∧
    reverse ([0x61] ++ [0xCC, 0x81]) = .ok [0x61, 0xCC, 0x81] := by decide +kernel

theorem decodes_perm {gs hs : List Str} (h : gs.Perm hs) : ∀ cs, Decodes gs.flatten cs → (∀ g ∈ gs, Valid g) →
    ∃ ds, Decodes hs.flatten ds ∧ cs.Perm ds := by
  induction h with
  | nil => intro cs h _; exact ⟨cs, h, .refl _⟩
  | @cons g gs hs _ ih =>
    intro cs h hv
    obtain ⟨a, ha⟩ := hv g (by simp)
    obtain ⟨b, hb⟩ := chars_valid' (gs := gs) (fun x hx => hv x (by simp [hx]))
    have := h.unique (show Decodes (g :: gs).flatten (a ++ b) from ha.append hb)
    obtain ⟨d, hd, hp⟩ := ih b hb (fun x hx => hv x (by simp [hx]))
    exact ⟨a ++ d, ha.append hd, this ▸ hp.append_left a⟩
  | swap g g' gs =>
    intro cs h hv
    obtain ⟨a, ha⟩ := hv g (by simp)
    obtain ⟨a', ha'⟩ := hv g' (by simp)
    obtain ⟨b, hb⟩ := chars_valid' (gs := gs) (fun x hx => hv x (by simp [hx]))
    have := h.unique (show Decodes (g' :: g :: gs).flatten (a' ++ (a ++ b)) from ha'.append (ha.append hb))
    refine ⟨a ++ (a' ++ b), ha.append (ha'.append hb), ?_⟩
    rw [this, ← List.append_assoc, ← List.append_assoc]
    exact List.Perm.append_right b List.perm_append_comm
  | trans h1 h2 ih1 ih2 =>
    intro cs h hv
    obtain ⟨d, hd, hp⟩ := ih1 cs h hv
    obtain ⟨e, he, hq⟩ := ih2 d hd (fun x hx => hv x (h1.mem_iff.mpr hx))
    exact ⟨e, he, hp.trans hq⟩

/-- C79: reversing a valid string yields a valid string with the same code points in another order (nothing lost,
added or changed), and so the same number of code points and bytes. -/
theorem C79_permutes (s : Str) (cs : List Char32) (h : toUtf32 s = .ok cs) (hl : s.length < SIZE_MOD) :
    ∃ r ds, reverse s = .ok r ∧ toUtf32 r = .ok ds ∧ ds.Perm cs ∧ r.length = s.length ∧
      countCodepoints r = countCodepoints s := by
  have hd := ((C09_to_utf32 _).1 _).mp h
  obtain ⟨gs, hg⟩ := ((C24_segmentation s).1).mp ⟨cs, hd⟩
  obtain ⟨h1, h2⟩ := C33_reverse s gs hg hl
  have hv : ∀ g ∈ gs, Valid g := fun g hg' => by
    obtain ⟨c, ms, hc, -⟩ := hg.2.1 g hg'; exact ⟨_, hc⟩
  obtain ⟨ds, hds, hp⟩ := decodes_perm gs.reverse_perm.symm cs (by rw [hg.1]; exact hd) hv
  exact ⟨_, ds, h1, ((C09_to_utf32 _).1 _).mpr hds, hp.symm, h2, by
    rw [C12_count_valid _ _ hds, C12_count_valid _ _ hd, hp.length_eq]⟩

/-- The characters of a reversed string that did not begin with a mark. -/
theorem characters_reverse {s : Str} {gs : List Str} (h : Characters s gs) (hm : ¬ StartsWithMark s) :
    Characters gs.reverse.flatten gs.reverse := by
  refine ⟨rfl, fun g hg => h.2.1 g (List.mem_reverse.mp hg), ?_⟩
  intro x hx
  have hx' := List.mem_reverse.mp (List.mem_of_mem_tail hx)
  cases gs with
  | nil => simp at hx'
  | cons g gs =>
    rcases List.mem_cons.mp hx' with rfl | hx'
    · intro hb
      apply hm
      rw [← h.1, List.flatten_cons, startsWithMark_append (h.2.1 x (by simp))]
      · exact hb
      · exact chars_valid (fun y hy => h.2.1 y (by simp [hy]))
    · exact h.2.2 x (by simpa using hx')

theorem piece_at (gs : List Str) (k : Nat) (hk : k < gs.length) :
    (gs.flatten.drop (gs.take k).flatten.length).take gs[k].length = gs[k] := by
  have e := congrArg List.flatten (take_getElem_drop k hk)
  rw [List.flatten_append, List.flatten_cons] at e
  rw [e, List.drop_left, List.take_left]

/-- C79: for a valid string that does not begin with a combining mark, `reverse` keeps the number of characters, and
character `k` of the result is character `k` from the end of the string. -/
theorem C79_characters (s : Str) (hv : Valid s) (hm : ¬ StartsWithMark s) (hl : s.length < npos) :
    ∃ r n, reverse s = .ok r ∧ countChars s = .ok n ∧ countChars r = .ok n ∧
      ∀ k : Nat, k < n → ∃ a b, getCharRange r k = .ok a ∧ getCharRange s (-(k : Int) - 1) = .ok b ∧
        (r.drop a.offset).take a.length = (s.drop b.offset).take b.length ∧ 0 < a.length := by
  obtain ⟨gs, hg⟩ := ((C24_segmentation s).1).mp hv
  have hl' : s.length < SIZE_MOD := by unfold npos at hl; unfold SIZE_MOD; omega
  obtain ⟨h1, h2⟩ := C33_reverse s gs hg hl'
  have hr := characters_reverse hg hm
  refine ⟨_, gs.length, h1, C25_count_chars s gs hg hl', ?_, ?_⟩
  · rw [C25_count_chars _ _ hr (by rw [h2]; exact hl'), List.length_reverse]
  · intro k hk
    have hk' : k < gs.reverse.length := by simpa using hk
    have ha := (C26_get_char_range _ _ hr (by rw [h2]; exact hl) (k : Int)).1 k hk' (.inl rfl)
    have hb := (C26_get_char_range s gs hg hl (-(k : Int) - 1)).1 (gs.length - 1 - k) (by omega) (.inr (by omega))
    refine ⟨_, _, ha, hb, ?_, ?_⟩
    · rw [piece_at gs.reverse k hk']
      conv => rhs; rw [← hg.1]
      rw [piece_at gs _ (by omega), List.getElem_reverse]
    · exact chars_length_pos hr (List.getElem_mem _)

theorem prevCharLoop_inv (fuel : Nat) : ∀ it it', prevCharLoop fuel it = .ok it' → ∃ u, Valid u ∧ it.reverse = it'.reverse ++ u := by
  induction fuel with
  | zero => intro it it' h; simp [prevCharLoop] at h
  | succ fuel ih =>
    intro it it' h
    rw [prevCharLoop] at h
    cases hd : safeDecodePrev it with
    | error e => rw [hd] at h; simp [bind, Except.bind] at h
    | ok o =>
      rw [hd] at h
      simp only [bind, Except.bind] at h
      cases o with
      | none => simp at h; subst h; exact ⟨[], ⟨[], .nil⟩, by simp⟩
      | some p =>
        obtain ⟨c, t⟩ := p
        obtain ⟨u, hu, e⟩ := safeDecodePrev_inv hd
        simp only at h
        split at h
        · obtain ⟨v, ⟨cs, hv⟩, hw⟩ := ih _ _ h
          refine ⟨v ++ u, ⟨_, hv.append hu.decodes⟩, ?_⟩
          rw [e, List.reverse_append, List.reverse_reverse, hw, List.append_assoc]
        · injection h with h; subst h
          refine ⟨u, ⟨_, hu.decodes⟩, ?_⟩
          rw [e, List.reverse_append, List.reverse_reverse]

theorem reverseLoop_valid {s : Str} (fuel : Nat) : ∀ o res r, reverseLoop s fuel o res = .ok r → Valid (s.take o) := by
  induction fuel with
  | zero => intro o res r h; simp [reverseLoop] at h
  | succ fuel ih =>
    intro o res r h
    rw [reverseLoop] at h
    split at h
    · unfold getPrevCharRange revIterAt at h
      simp only [bind, Except.bind] at h
      by_cases hb : o > s.length
      · rw [if_pos hb] at h; simp at h
      · rw [if_neg hb] at h
        simp only at h
        cases hp : prevCharLoop (s.length + 1) (s.take o).reverse with
        | error e => rw [hp] at h; simp at h
        | ok it =>
          rw [hp] at h
          simp only at h
          obtain ⟨u, ⟨cs, hu⟩, e⟩ := prevCharLoop_inv _ _ _ hp
          obtain ⟨ds, hd⟩ := ih _ _ _ h
          rw [List.reverse_reverse] at e
          have hpre : s.take it.length = it.reverse := by
            have h1 := congrArg (List.take it.length) e
            rw [List.take_left' (by simp)] at h1
            have hle := congrArg List.length e
            simp at hle
            rw [List.take_take, Nat.min_eq_left (by omega)] at h1
            exact h1
          unfold Subrange.start at hd
          rw [hpre] at hd
          exact ⟨_, e ▸ hd.append hu⟩
    · rename_i h0
      have : o = 0 := by omega
      subst this
      exact ⟨[], by simpa using Decodes.nil⟩

/-- C79: `reverse` returns only for valid strings; malformed strings (without the long runs of continuation bytes of
C06) make it throw. -/
theorem C79_malformed (s : Str) (h : ¬ Valid s) (hl : Fits s) :
    (∀ r, reverse s ≠ .ok r) ∧ (NoLongRun s → reverse s = .error .ystring) := by
  have h1 : ∀ r, reverse s ≠ .ok r := by
    intro r hr
    unfold reverse at hr
    have := reverseLoop_valid _ _ _ _ hr
    rw [List.take_length] at this
    exact h this
  refine ⟨h1, fun hn => ?_⟩
  rcases C64_reverse s hl hn with e | ⟨r, e⟩
  · exact e
  · exact absurd e (h1 r)

example : reverse [0x61, 0xC3] = .error .ystring := by decide +kernel

/-- "aé" + "b" + U+0308: the hypotheses of `C79_concat`. -/
example : ∃ a b, reverse [0x61, 0xC3, 0xA9] = .ok a ∧ reverse [0x62, 0xCC, 0x88] = .ok b ∧
    reverse [0x61, 0xC3, 0xA9, 0x62, 0xCC, 0x88] = .ok (b ++ a) ∧ b ++ a = [0x62, 0xCC, 0x88, 0xC3, 0xA9, 0x61] :=
  ⟨[0xC3, 0xA9, 0x61], [0x62, 0xCC, 0x88], by decide +kernel⟩

end Ystring
