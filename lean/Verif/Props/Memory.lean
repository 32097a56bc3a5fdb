import Verif.Spec.Memory
import Verif.Props.Split
import Verif.Props.Trim
import Verif.Props.Concat
/-
Property theorems C22, C40 and C42 for any contents of the memory behind the arrays NEWLINES and COMMON_WHITESPACE, which the
code converts to `std::u32string_view` although they are not terminated.
-/
namespace Ystring
open Spec

/-- In a valid string the values that occur are its code points. -/
theorem contains_decodes {s : Str} {cs : List Char32} (h : Decodes s cs) {c : Char32} : Contains s c ↔ c ∈ cs := by
  constructor
  · rintro ⟨a, u, b, rfl, hu⟩
    obtain ⟨⟨as, ha⟩, ⟨bs, hb⟩⟩ := valid_cut ⟨cs, h⟩ ⟨_, hu.decodes⟩ hu.ne_nil
    have := (ha.append hu.decodes).append hb
    rw [h.unique this]
    simp
  · intro hc
    induction h with
    | nil => simp at hc
    | @cons u s d ds hu hs ih =>
      rcases List.mem_cons.mp hc with rfl | hc
      · exact ⟨[], u, s, by simp, hu⟩
      · obtain ⟨a, v, b, rfl, hv⟩ := ih hc
        exact ⟨u ++ a, v, b, by simp, hv⟩

theorem findFirstWhereLoop_congr (s : Str) (p q : Char32 → Bool) (fuel : Nat) : ∀ (w it prev : Str), s = w ++ it →
    (∀ c, Contains s c → p c = q c) → findFirstWhereLoop s p fuel it prev = findFirstWhereLoop s q fuel it prev := by
  induction fuel with
  | zero => intros; rfl
  | succ fuel ih =>
    intro w it prev e h
    unfold findFirstWhereLoop
    cases hd : safeDecodeNext it with
    | error e => rfl
    | ok r =>
      cases r with
      | none => rfl
      | some x =>
        obtain ⟨ch, it'⟩ := x
        obtain ⟨u, hu, e'⟩ := safeDecodeNext_inv hd
        have hc : Contains s ch := ⟨w, u, it', by simp [e, e'], hu⟩
        simp only [bind, Except.bind]
        rw [h ch hc, ih (w ++ u) it' it' (by simp [e, e']) h]

theorem findFirstWhere_congr (s : Str) (p q : Char32 → Bool) (o : Nat) (h : ∀ c, Contains s c → p c = q c) :
    findFirstWhere s p o = findFirstWhere s q o := by
  unfold findFirstWhere
  cases hi : iterAt s o with
  | error e => rfl
  | ok it =>
    simp only [bind, Except.bind]
    unfold iterAt at hi
    split at hi
    · exact absurd hi (by simp)
    · cases hi
      exact findFirstWhereLoop_congr s p q _ (s.take o) _ _ (List.take_append_drop o s).symm h

theorem findLastWhereLoop_congr (s : Str) (p q : Char32 → Bool) (fuel : Nat) : ∀ (w it prev : Str), s = it.reverse ++ w →
    (∀ c, Contains s c → p c = q c) → findLastWhereLoop p fuel it prev = findLastWhereLoop q fuel it prev := by
  induction fuel with
  | zero => intros; rfl
  | succ fuel ih =>
    intro w it prev e h
    unfold findLastWhereLoop
    cases hd : safeDecodePrev it with
    | error e => rfl
    | ok r =>
      cases r with
      | none => rfl
      | some x =>
        obtain ⟨ch, it'⟩ := x
        obtain ⟨u, hu, e'⟩ := safeDecodePrev_inv hd
        have hc : Contains s ch := ⟨it'.reverse, u, w, by simp [e, e'], hu⟩
        simp only [bind, Except.bind]
        rw [h ch hc, ih (u ++ w) it' it' (by simp [e, e']) h]

theorem findLastWhere_congr (s : Str) (p q : Char32 → Bool) (o : Nat) (h : ∀ c, Contains s c → p c = q c) :
    findLastWhere s p o = findLastWhere s q o := by
  unfold findLastWhere
  exact findLastWhereLoop_congr s p q _ (s.drop (min o s.length)) _ _ (by simp) h

theorem u32Contains_mem (arr mem : List Char32) (c : Char32) (h : c ∈ mem → c ∈ arr) :
    u32Contains (pointerView arr mem) c = u32Contains (pointerView arr []) c := by
  rw [Bool.eq_iff_iff, u32Contains_iff, u32Contains_iff]
  unfold pointerView
  simp only [List.mem_append, List.append_nil]
  exact ⟨fun x => x.elim id h, Or.inl⟩

theorem mem_newlines (c : Char32) : c ∈ NEWLINES ↔ IsNewlineChar c := by
  rw [← u32Contains_iff, newlines_iff]

/-- C22: what lies in memory behind the array does not matter as long as none of these values, up to the first zero, occurs
in the string (other than newline characters). No assumption on the string. -/
theorem C22_memory_behind_array (mem : List Char32) (s : Str) (h : Harmless mem IsNewlineChar s) (offset : Nat) :
    findFirstNewline mem s offset = findFirstNewline [] s offset ∧
    findLastNewline mem s offset = findLastNewline [] s offset := by
  have hc : ∀ c, Contains s c → u32Contains (pointerView NEWLINES mem) c = u32Contains (pointerView NEWLINES []) c :=
    fun c hc => u32Contains_mem _ _ _ fun hm => (mem_newlines c).mpr (h c hm hc)
  constructor
  · unfold findFirstNewline findFirstOf
    rw [findFirstWhere_congr s _ _ offset hc]
  · unfold findLastNewline findLastOf
    rw [findLastWhere_congr s _ _ offset hc]

theorem newline_seq {u : Str} {c : Char32} (hu : IsSeq u c) (h : IsNewline u) : IsNewlineChar c := by
  rcases h with ⟨x, y, e, h1, h2⟩ | ⟨c', h1, h2⟩
  · have := hu.append_inj h1 (s := []) (t := y) (by simpa using e)
    exact absurd this.2.2.symm h2.ne_nil
  · exact (hu.unique h2) ▸ h1

/-- C22: the condition is necessary: if a value behind the array that is not a newline occurs as a code point of a valid
string, then a search starting (ending) there reports it as a newline, and the intended search does not. -/
theorem C22_memory_needed (mem : List Char32) (a u b : Str) (c : Char32) (hc : c ∈ mem) (hn : ¬ IsNewlineChar c)
    (hu : IsSeq u c) (hb : Valid b) (ha : Valid a) (hl : (a ++ u ++ b).length < SIZE_MOD) :
    findFirstNewline mem (a ++ u ++ b) a.length = .ok ⟨a.length, u.length⟩ ∧
    findFirstNewline [] (a ++ u ++ b) a.length ≠ .ok ⟨a.length, u.length⟩ ∧
    findLastNewline mem (a ++ u ++ b) (a ++ u).length = .ok ⟨a.length, u.length⟩ ∧
    findLastNewline [] (a ++ u ++ b) (a ++ u).length ≠ .ok ⟨a.length, u.length⟩ := by
  have hp : u32Contains (pointerView NEWLINES mem) c = true := by
    rw [u32Contains_iff]; unfold pointerView; simp [hc]
  have hD : c ≠ 0x0D := fun e => hn (by unfold IsNewlineChar; simp [e])
  have hA : c ≠ 0x0A := fun e => hn (by unfold IsNewlineChar; simp [e])
  have hub : Valid (u ++ b) := (valid_append_iff ⟨_, hu.decodes⟩ b).mpr hb
  have hau : Valid (a ++ u) := (valid_append_iff ha u).mpr ⟨_, hu.decodes⟩
  have hmin : min (a ++ u).length ((a ++ u) ++ b).length = (a ++ u).length := by simp
  refine ⟨?_, ?_, ?_, ?_⟩
  · have h1 := (C20_find_first_where a (u ++ b) (u32Contains (pointerView NEWLINES mem))).1 [] u b [] c (by simp)
      Decodes.nil (by simp) hu hp
    unfold findFirstNewline findFirstOf
    rw [List.append_assoc, h1]
    simp [bind, Except.bind, hD]
  · intro hx
    have h1 := C22_find_first_newline_partial a (u ++ b) (by rw [← List.append_assoc]; exact hl)
    rw [List.append_assoc] at hx
    rcases (C22_cases (u ++ b) hub).1 with ⟨cs, h2, h3⟩ | ⟨w, nl, t, cs, ds, e, h2, h3, h4, h5, h6⟩
    · rw [h1.2 cs h2 h3] at hx
      injection hx with hx; injection hx with hx hy
      exact hu.ne_nil (List.length_eq_zero_iff.mp hy.symm)
    · rw [h1.1 w nl t cs ds e h2 h3 h4 h5 h6] at hx
      injection hx with hx; injection hx with hx hy
      have hw : w = [] := List.length_eq_zero_iff.mp (by omega)
      subst hw
      have : u = nl := (List.append_inj (by simpa using e) hy.symm).1
      exact hn (newline_seq hu (this ▸ h4))
  · have h1 := (C21_find_last_where (a ++ u) b (u32Contains (pointerView NEWLINES mem)) _ hmin).1 a u [] [] c (by simp)
      Decodes.nil (by simp) hu hp
    unfold findLastNewline findLastOf
    rw [h1]
    simp [bind, Except.bind, hA]
  · intro hx
    have h1 := C22_find_last_newline_partial (a ++ u) b _ hmin hl
    rcases (C22_cases (a ++ u) hau).2 with ⟨cs, h2, h3⟩ | ⟨t, nl, w, cs, ds, e, h2, h3, h4, h5, h6⟩
    · rw [h1.2 cs h2 h3] at hx
      injection hx with hx; injection hx with hx hy
      exact hu.ne_nil (List.length_eq_zero_iff.mp hy.symm)
    · rw [h1.1 t nl w cs ds e h2 h3 h4 h5 h6] at hx
      injection hx with hx; injection hx with hx hy
      rw [List.append_assoc] at e
      have e2 := (List.append_inj e hx.symm).2
      have : u = nl := (List.append_inj (by simpa using e2 : u ++ [] = nl ++ w) hy.symm).1
      exact hn (newline_seq hu (this ▸ h4))

/-! ### C40 -/

theorem next_congr {f g : Str → Res Subrange} {it : TokenIterator} (h : ∀ t, t <:+: it.str → f t = g t) :
    it.next f = it.next g := by
  unfold TokenIterator.next
  dsimp only
  split
  · unfold substr
    split
    · rfl
    · simp only [bind, Except.bind]
      rw [h _ ((List.take_prefix _ _).isInfix.trans (List.drop_suffix _ _).isInfix)]
  · split
    · rfl
    · rw [h it.str (List.infix_refl _)]

theorem next_infix {f : Str → Res Subrange} {it it' : TokenIterator} {m : Bool} (h : it.next f = .ok (m, it')) :
    it'.str <:+: it.str := by
  unfold TokenIterator.next at h
  dsimp only at h
  have find : ∀ t : Str, (do
      let token ← f t
      if (!token.nonempty) = true then
          Except.ok (true, ({ str := t, token := { offset := npos, length := token.length } } : TokenIterator))
        else Except.ok (true, { str := t, token := token } )) = Except.ok (m, it') → it'.str = t := by
    intro t h
    cases hf : f t with
    | error e => rw [hf] at h; exact absurd h (by simp [bind, Except.bind])
    | ok r =>
      rw [hf] at h
      simp only [bind, Except.bind] at h
      split at h <;> (injection h with h; injection h with h1 h2; subst h2; rfl)
  split at h
  · unfold substr at h
    split at h
    · exact absurd h (by simp [bind, Except.bind])
    · rw [find _ h]
      exact (List.take_prefix _ _).isInfix.trans (List.drop_suffix _ _).isInfix
  · split at h
    · injection h with h; injection h with h1 h2; subst h2; exact List.infix_refl _
    · rw [find _ h]; exact List.infix_refl _

theorem splitLoop_congr {f g : Str → Res Subrange} (params : SplitParams) (fuel : Nat) : ∀ (it : TokenIterator) (res : List Str),
    (∀ t, t <:+: it.str → f t = g t) → splitLoop f params fuel it res = splitLoop g params fuel it res := by
  induction fuel with
  | zero => intros; rfl
  | succ fuel ih =>
    intro it res h
    unfold splitLoop
    rw [next_congr h]
    split
    · cases hn : it.next g with
      | error e => rfl
      | ok r =>
        obtain ⟨m, it'⟩ := r
        have h' : ∀ t, t <:+: it'.str → f t = g t := fun t ht => h t (ht.trans (next_infix hn))
        simp only [bind, Except.bind]
        split
        · cases it'.part with
          | error e => rfl
          | ok part => simp only [ih it' _ h']
        · rfl
    · rfl

theorem splitWhere_congr {f g : Str → Res Subrange} (s : Str) (params : SplitParams) (h : ∀ t, t <:+: s → f t = g t) :
    splitWhere s f params = splitWhere s g params := by
  unfold splitWhere
  rw [splitLoop_congr params _ (TokenIterator.mk' s) [] h]

theorem Spec.Harmless.infix {mem : List Char32} {p : Char32 → Prop} {s t : Str} (h : Harmless mem p s) (ht : t <:+: s) :
    Harmless mem p t := by
  obtain ⟨a, b, rfl⟩ := ht
  intro c hc ⟨x, u, y, e, hu⟩
  exact h c hc ⟨a ++ x, u, y ++ b, by simp [e], hu⟩

/-- C40: what lies in memory behind the array does not matter as long as none of these values occurs in the string (other
than newline characters). No assumption on the string. -/
theorem C40_memory_behind_array (mem : List Char32) (s : Str) (h : Harmless mem IsNewlineChar s) (params : SplitParams) :
    splitLines mem s params = splitLines [] s params := by
  unfold splitLines
  exact splitWhere_congr s params fun t ht => (C22_memory_behind_array mem t (h.infix ht) 0).1

/-! ### C42 -/

/-- C42: the default arguments trim spaces, tabs, line feeds and carriage returns as long as none of the values that lie in
memory behind the array, up to the first zero, occurs in the string (other than these four). -/
theorem C42_trim_default (mem : List Char32) (s : Str) (hs : Valid s) (hl : s.length < SIZE_MOD)
    (h : Harmless mem IsCommonSpace s) (p : Char32 → Bool) (hp : ∀ c, p c = true ↔ IsCommonSpace c) :
    (∃ a t, s = a ++ t ∧ trimStartDefault mem s = .ok t ∧ AllChars p a ∧ NotFirst p t) ∧
    (∃ a t, s = t ++ a ∧ trimEndDefault mem s = .ok t ∧ AllChars p a ∧ NotLast p t) ∧
    (∃ a t b, s = a ++ t ++ b ∧ trimDefault mem s = .ok t ∧ AllChars p a ∧ AllChars p b ∧ NotFirst p t ∧ NotLast p t) := by
  have hq : ∀ c, p c = true ↔ c ∈ COMMON_WHITESPACE := by
    intro c; rw [hp]; unfold IsCommonSpace COMMON_WHITESPACE; simp
  have hc : ∀ t, t <:+: s → ∀ c, Contains t c → u32Contains (pointerView COMMON_WHITESPACE mem) c = p c := by
    intro t ht c hc
    rw [u32Contains_mem _ _ _ fun hm => (hq c).mp ((hp c).mpr (h.infix ht c hm hc)), Bool.eq_iff_iff, u32Contains_iff, hq]
    simp [pointerView]
  have h1 : ∀ t, t <:+: s → trimStartDefault mem t = trimStartWhere t p := by
    intro t ht
    unfold trimStartDefault trimStart trimStartWhere
    rw [findFirstWhere_congr t _ _ 0 fun c hx => by rw [hc t ht c hx]]
  have h2 : ∀ t, t <:+: s → trimEndDefault mem t = trimEndWhere t p := by
    intro t ht
    unfold trimEndDefault trimEnd trimEndWhere
    rw [findLastWhere_congr t _ _ npos fun c hx => by rw [hc t ht c hx]]
  obtain ⟨a, t, e1, e2, e3, e4, _⟩ := C42_trim_start_where s hs hl p
  obtain ⟨a', t', e1', e2', e3', e4', _⟩ := C42_trim_end_where s hs hl p
  obtain ⟨a3, t3, b3, f1, f2, f3, f4, f5, f6, _⟩ := C42_trim_where s hs hl p
  refine ⟨⟨a, t, e1, by rw [h1 s (List.infix_refl _), e2], e3, e4⟩, ⟨a', t', e1', by rw [h2 s (List.infix_refl _), e2'], e3', e4'⟩,
    ⟨a3, t3, b3, f1, ?_, f3, f4, f5, f6⟩⟩
  rw [← f2]
  have h1s := h1 s (List.infix_refl _)
  unfold trimDefault trim trimWhere
  unfold trimStartDefault at h1s
  rw [h1s, e2]
  simp only [bind, Except.bind]
  have ht : t <:+: s := ⟨a, [], by simp [e1]⟩
  exact h2 t ht

/-- The hypotheses are met by a string with non-ASCII text and memory that contains other characters. -/
example : Harmless [0x41, 0x0A] IsNewlineChar [0x62, 0x0A, 0xC3, 0xA6] ∧
    splitLines [0x41, 0x0A] [0x62, 0x0A, 0xC3, 0xA6] = .ok [[0x62], [0xC3, 0xA6]] := by
  refine ⟨?_, by decide +kernel⟩
  intro c hc h
  rw [contains_decodes (cs := [0x62, 0x0A, 0xE6]) ?_] at h
  · simp at hc h
    unfold IsNewlineChar
    rcases hc with rfl | rfl
    · simp at h
    · simp
  · exact .cons (u := [0x62]) (.one (by decide) (by decide)) (.cons (u := [0x0A]) (.one (by decide) (by decide))
      (.cons (u := [0xC3, 0xA6]) (.two (by decide) (by decide) ⟨by decide, by decide⟩ (by decide)) .nil))

end Ystring
