import Verif.Props.Basics
import Verif.Props.Case
import Verif.Props.CaseInsensitive
import Verif.Props.Chars
import Verif.Props.Escape
/-
Property theorems C69: what the functions return for a concatenation of two strings.
-/
namespace Ystring
open Spec

/-- A valid string can be taken off the front of a valid string. -/
theorem decodes_after {s t : Str} {cs es : List Char32} (hs : Decodes s cs) (h : Decodes (s ++ t) es) :
    ∃ ds, Decodes t ds ∧ es = cs ++ ds := by
  induction hs generalizing es with
  | nil => exact ⟨es, h, rfl⟩
  | @cons u s c cs hu hs ih =>
    rw [List.append_assoc] at h
    rcases h.nil_or with ⟨e, _⟩ | ⟨v, c', r, ds, hv, hr, e1, e2⟩
    · rw [List.append_eq_nil_iff] at e
      exact absurd e.1 hu.ne_nil
    · obtain ⟨h1, h2, h3⟩ := hu.append_inj hv e1
      subst h1 h2 h3 e2
      obtain ⟨ds', h4, h5⟩ := ih hr
      exact ⟨ds', h4, by rw [h5]; rfl⟩

theorem valid_append_iff {s : Str} (hs : Valid s) (t : Str) : Valid (s ++ t) ↔ Valid t := by
  obtain ⟨cs, hs⟩ := hs
  constructor
  · rintro ⟨es, h⟩
    obtain ⟨ds, h, _⟩ := decodes_after hs h
    exact ⟨ds, h⟩
  · rintro ⟨ds, h⟩
    exact ⟨_, hs.append h⟩

/-- C69: decoding a concatenation decodes the parts, and if the first part is valid then the concatenation is decoded
(or rejected) as the second part is. -/
theorem C69_to_utf32 (s t : Str) (cs : List Char32) (hs : toUtf32 s = .ok cs) :
    (∀ ds, toUtf32 t = .ok ds → toUtf32 (s ++ t) = .ok (cs ++ ds)) ∧
    (toUtf32 t = .error .ystring → toUtf32 (s ++ t) = .error .ystring) ∧
    isValidUtf8 (s ++ t) = isValidUtf8 t := by
  have hs' := ((C09_to_utf32 _).1 _).mp hs
  refine ⟨fun ds hd => ((C09_to_utf32 _).1 _).mpr (hs'.append (((C09_to_utf32 _).1 _).mp hd)), fun ht => ?_, ?_⟩
  · refine (C09_to_utf32 _).2 fun hv => ?_
    obtain ⟨ds, hd⟩ := (valid_append_iff ⟨_, hs'⟩ t).mp hv
    rw [((C09_to_utf32 _).1 _).mpr hd] at ht
    cases ht
  · have := valid_append_iff ⟨_, hs'⟩ t
    by_cases hv : Valid t
    · rw [(C08_is_valid_partial t).1.mpr hv, (C08_is_valid_partial _).1.mpr (this.mpr hv)]
    · rw [(C08_is_valid_partial t).2.1.mpr hv, (C08_is_valid_partial _).2.1.mpr (fun h => hv (this.mp h))]

/-- C69: encoding a concatenation. -/
theorem C69_from_utf32 (cs ds : List Char32) : fromUtf32 (cs ++ ds) = fromUtf32 cs ++ fromUtf32 ds := by
  simp [fromUtf32_eq]

/-- C69: code points are counted, found and case-converted part by part. -/
theorem C69_codepoints (s t : Str) (hs : Valid s) (ht : Valid t) :
    (∃ m n, countCodepoints s = .ok m ∧ countCodepoints t = .ok n ∧ countCodepoints (s ++ t) = .ok (m + n)) ∧
    (∀ c, ∃ a b, contains s c = .ok a ∧ contains t c = .ok b ∧ contains (s ++ t) c = .ok (a || b)) ∧
    (∀ u v, toLower s = .ok u → toLower t = .ok v → toLower (s ++ t) = .ok (u ++ v)) ∧
    (∀ u v, toUpper s = .ok u → toUpper t = .ok v → toUpper (s ++ t) = .ok (u ++ v)) ∧
    ((toLower s = .error .ystring ∨ toLower t = .error .ystring) → toLower (s ++ t) = .error .ystring) ∧
    ((toUpper s = .error .ystring ∨ toUpper t = .error .ystring) → toUpper (s ++ t) = .error .ystring) := by
  obtain ⟨cs, hs⟩ := hs
  obtain ⟨ds, ht⟩ := ht
  have hst := hs.append ht
  have both : (∃ es, Decodes (s ++ t) es ∧ InUnicode es) ↔
      (∃ es, Decodes s es ∧ InUnicode es) ∧ (∃ es, Decodes t es ∧ InUnicode es) := by
    constructor
    · rintro ⟨es, h1, h2⟩
      rw [← hst.unique h1] at h2
      exact ⟨⟨cs, hs, fun c hc => h2 c (List.mem_append_left _ hc)⟩, ⟨ds, ht, fun c hc => h2 c (List.mem_append_right _ hc)⟩⟩
    · rintro ⟨⟨_, h1, h2⟩, ⟨_, h3, h4⟩⟩
      refine ⟨_, h1.append h3, fun c hc => ?_⟩
      rcases List.mem_append.mp hc with h | h
      · exact h2 c h
      · exact h4 c h
  have key : ∀ (f : Str → Res Str) (g : List Char32 → Str), (∀ s, (∀ cs, Decodes s cs → InUnicode cs → f s = .ok (g cs)) ∧
      ((¬ ∃ cs, Decodes s cs ∧ InUnicode cs) → f s = .error .ystring)) → (∀ a b, g (a ++ b) = g a ++ g b) →
      (∀ u v, f s = .ok u → f t = .ok v → f (s ++ t) = .ok (u ++ v)) ∧
      ((f s = .error .ystring ∨ f t = .error .ystring) → f (s ++ t) = .error .ystring) := by
    intro f g hf hg
    constructor
    · intro u v hu hv
      by_cases b1 : ∃ es, Decodes s es ∧ InUnicode es
      · by_cases b2 : ∃ es, Decodes t es ∧ InUnicode es
        · obtain ⟨e1, h1, h2⟩ := b1
          obtain ⟨e2, h3, h4⟩ := b2
          rw [(hf s).1 _ h1 h2] at hu
          rw [(hf t).1 _ h3 h4] at hv
          cases hu; cases hv
          rw [(hf (s ++ t)).1 _ (h1.append h3) (by
            intro c hc
            rcases List.mem_append.mp hc with h | h
            · exact h2 c h
            · exact h4 c h), hg]
        · rw [(hf t).2 b2] at hv; cases hv
      · rw [(hf s).2 b1] at hu; cases hu
    · intro h
      apply (hf _).2
      rw [both]
      rintro ⟨⟨e1, h1, h2⟩, ⟨e2, h3, h4⟩⟩
      rcases h with h | h
      · rw [(hf s).1 _ h1 h2] at h; cases h
      · rw [(hf t).1 _ h3 h4] at h; cases h
  have hl := key toLower lowerText C53_to_lower (by intro a b; simp [lowerText])
  have hu := key toUpper upperText C53_to_upper (by intro a b; simp [upperText])
  refine ⟨⟨_, _, C12_count_valid _ _ hs, C12_count_valid _ _ ht, ?_⟩, fun c => ⟨_, _, C16_contains_valid _ _ hs c,
    C16_contains_valid _ _ ht c, ?_⟩, hl.1, hu.1, hl.2, hu.2⟩
  · rw [C12_count_valid _ _ hst, List.length_append]
  · rw [C16_contains_valid _ _ hst]; congr 1; simp [List.mem_append, Bool.decide_or]

/-- C69: escaping works byte by byte. -/
theorem C69_escape_json (s t : Str) (h : Fits (s ++ t)) : ∃ u v, escapeJson s = .ok u ∧ escapeJson t = .ok v ∧
    escapeJson (s ++ t) = .ok (u ++ v) := by
  have h1 : Fits s := by unfold Fits at *; rw [List.length_append] at h; omega
  have h2 : Fits t := by unfold Fits at *; rw [List.length_append] at h; omega
  exact ⟨_, _, C56_exact s h1, C56_exact t h2, by rw [C56_exact _ h]; simp [jsonEscaped]⟩

/-- C69: concatenation respects case-insensitive equality, and an equal first (or second) part can be cancelled. -/
theorem C69_equal (a b c d : Str) (ha : Valid a) (hb : Valid b) (hc : Valid c) (hd : Valid d) (h : CI.equal a b = .ok true) :
    CI.equal (a ++ c) (b ++ d) = CI.equal c d ∧ CI.equal (c ++ a) (d ++ b) = CI.equal c d := by
  obtain ⟨as, ha⟩ := ha
  obtain ⟨bs, hb⟩ := hb
  obtain ⟨cs, hc⟩ := hc
  obtain ⟨ds, hd⟩ := hd
  rw [CI.C43_equal ha hb] at h
  have h : fold as = fold bs := by simpa using h
  rw [CI.C43_equal (ha.append hc) (hb.append hd), CI.C43_equal hc hd, CI.C43_equal (hc.append ha) (hd.append hb)]
  have f : ∀ x y, fold (x ++ y) = fold x ++ fold y := by intro x y; simp [fold]
  rw [f, f, f, f, h]
  simp

/-- Characters and title case do not work part by part: a leading mark joins the last character of the first part,
and the second part may continue a word. -/
theorem C69_false :
    (countChars [0x65] = .ok 1 ∧ countChars [0xCC, 0x81] = .ok 1 ∧ countChars ([0x65] ++ [0xCC, 0x81]) = .ok 1) ∧
    toTitle [0x61] = .ok [0x41] ∧ toTitle ([0x61] ++ [0x61]) = .ok [0x41, 0x61] := by decide +kernel

/-- C69: characters are counted part by part iff the second part does not begin with a mark. -/
theorem C69_characters (s t : Str) (gs hs : List Str) (hg : Characters s gs) (hh : Characters t hs) (h0 : s ≠ [])
    (hl : (s ++ t).length < SIZE_MOD) :
    (¬ StartsWithMark t → Characters (s ++ t) (gs ++ hs) ∧ countChars (s ++ t) = .ok (gs.length + hs.length)) ∧
    (StartsWithMark t → countChars (s ++ t) = .ok (gs.length + hs.length - 1)) := by
  obtain ⟨g1, g2, g3⟩ := hg
  obtain ⟨k1, k2, k3⟩ := hh
  have hgne : gs ≠ [] := by rintro rfl; exact h0 g1.symm
  have tail : ∀ {h : Str} {hs' : List Str}, (∀ g ∈ hs', IsCharacter g) → IsCharacter h → StartsWithMark (h ++ hs'.flatten) →
      StartsWithMark h := by
    rintro h hs' _ ⟨c, ms, hd, hm⟩ ⟨m, cs, he, hmm⟩
    obtain ⟨ds, hd', e⟩ := decodes_after hd he
    injection e with e1 _
    exact ⟨c, ms, hd, e1 ▸ hmm⟩
  constructor
  · intro hm
    have h : Characters (s ++ t) (gs ++ hs) := by
      refine ⟨by rw [List.flatten_append, g1, k1], ?_, ?_⟩
      · intro g hg
        rcases List.mem_append.mp hg with h | h
        · exact g2 g h
        · exact k2 g h
      · intro g hg
        rw [List.tail_append_of_ne_nil hgne] at hg
        rcases List.mem_append.mp hg with h | h
        · exact g3 g h
        · cases hs with
          | nil => cases h
          | cons h' hs' =>
            rcases List.mem_cons.mp h with e | h
            · subst e
              rintro ⟨m, cs, hd, hmk⟩
              have hv : Valid hs'.flatten := (valid_append_iff ⟨_, hd⟩ _).mp (by
                have : Valid t := (C24_segmentation t).1.mpr ⟨_, k1, k2, k3⟩
                rw [← k1] at this; exact this)
              obtain ⟨es, he⟩ := hv
              exact hm ⟨m, cs ++ es, by rw [← k1]; exact hd.append he, hmk⟩
            · exact k3 g h
    exact ⟨h, by rw [C25_count_chars _ _ h hl, List.length_append]⟩
  · intro hm
    cases hs with
    | nil =>
      have : t = [] := k1.symm
      subst this
      obtain ⟨m, cs, hd, _⟩ := hm
      rcases hd.nil_or with ⟨_, e⟩ | ⟨u, c, t', ds, h1, _, e, _⟩
      · cases e
      · exact absurd (List.append_eq_nil_iff.mp e.symm).1 h1.ne_nil
    | cons h' hs' =>
      obtain ⟨m, ms', hd', hmk'⟩ := k2 h' List.mem_cons_self
      have hsm : StartsWithMark h' := tail (fun g hg => k2 g (List.mem_cons_of_mem _ hg)) (k2 h' List.mem_cons_self) (by
        rw [← k1] at hm; exact hm)
      obtain ⟨gs', g, rfl⟩ : ∃ gs' g, gs = gs' ++ [g] := ⟨_, _, (List.dropLast_concat_getLast hgne).symm⟩
      obtain ⟨c, ms, hd, hmk⟩ := g2 g (by simp)
      have h : Characters (s ++ t) (gs' ++ [g ++ h'] ++ hs') := by
        refine ⟨by rw [← g1, ← k1]; simp, ?_, ?_⟩
        · intro x hx
          rcases List.mem_append.mp hx with hx | hx
          · rcases List.mem_append.mp hx with hx | hx
            · exact g2 x (List.mem_append_left _ hx)
            · rw [List.mem_singleton] at hx; subst hx
              refine ⟨c, ms ++ m :: ms', hd.append hd', ?_⟩
              intro y hy
              rcases List.mem_append.mp hy with hy | hy
              · exact hmk y hy
              · rcases List.mem_cons.mp hy with e | hy
                · obtain ⟨m2, cs2, hd2, hm2⟩ := hsm
                  have := hd'.unique hd2
                  injection this with e1 _
                  rw [e, e1]; exact hm2
                · exact hmk' y hy
          · exact k2 x (List.mem_cons_of_mem _ hx)
        · intro x hx
          have hx : x ∈ gs'.tail ++ hs' ∨ (gs' ≠ [] ∧ x = g ++ h') := by
            cases gs' with
            | nil => left; simpa using hx
            | cons a gs' =>
              simp only [List.cons_append, List.tail_cons, List.mem_append, List.mem_singleton] at hx ⊢
              rcases hx with (h | h) | h
              · exact .inl (.inl h)
              · exact .inr ⟨by simp, h⟩
              · exact .inl (.inr h)
          rcases hx with hx | ⟨hne, rfl⟩
          · rcases List.mem_append.mp hx with hx | hx
            · refine g3 x ?_
              cases gs' with
              | nil => cases hx
              | cons a gs' => exact List.mem_append_left _ hx
            · exact k3 x hx
          · rintro ⟨m1, cs1, hd1, hm1⟩
            have e := (hd.append hd').unique hd1
            injection e with e1 _
            refine g3 g ?_ ⟨c, ms, hd, e1 ▸ hm1⟩
            cases gs' with
            | nil => exact absurd rfl hne
            | cons a gs' => simp
      rw [C25_count_chars _ _ h hl]
      congr 1
      simp; omega

example : Characters [0x65] [[0x65]] ∧ StartsWithMark [0xCC, 0x81] := by
  have h1 : Decodes [0x65] [0x65] := by
    have : IsSeq [0x65] 0x65 := .one (by decide) (by decide)
    exact this.decodes
  have h2 : Decodes [0xCC, 0x81] [0x301] := by
    have : IsSeq [0xCC, 0x81] 0x301 := .two (by decide) (by decide) (by unfold IsCont; decide) (by decide)
    exact this.decodes
  exact ⟨⟨rfl, by simpa using ⟨_, _, h1, by simp⟩, by simp⟩, ⟨_, _, h2, by decide +kernel⟩⟩

end Ystring
