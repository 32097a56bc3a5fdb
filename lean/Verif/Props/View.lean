import Verif.Spec.View
import Verif.Props.Trim
import Verif.Props.Split
import Verif.Props.Safety
/-
Property theorem C87: where the views returned by the library point to.
-/
namespace Ystring
open Spec

theorem view_substr_text (v : View) (pos n : Nat) : (v.substr pos n).map (·.text) = substr v.text pos n := by
  unfold View.substr
  rcases substr v.text pos n with e | t <;> rfl

theorem view_substr_part {v w : View} {d pos n : Nat} (hv : v.data = some d) (h : v.substr pos n = .ok w) :
    PartOf w v ∧ w.data = some (d + pos) := by
  unfold View.substr substr at h
  by_cases hp : pos > v.text.length
  · rw [if_pos hp] at h; cases h
  · rw [if_neg hp] at h
    simp only [bind, Except.bind, Except.ok.injEq] at h
    subst h
    have e : (v.text.take pos).length = pos := by simp; omega
    refine ⟨⟨d, v.text.take pos, (v.text.drop pos).drop n, hv, ?_, ?_⟩, by simp [hv]⟩
    · rw [List.append_assoc, List.take_append_drop, List.take_append_drop]
    · rw [e]; simp [hv]

/-! ### The contents -/

theorem trim_views_text (v : View) (p : Char32 → Bool) :
    (trimStartWhereV v p).map (·.text) = trimStartWhere v.text p ∧
    (trimEndWhereV v p).map (·.text) = trimEndWhere v.text p := by
  unfold trimStartWhereV trimStartWhere trimEndWhereV trimEndWhere
  constructor
  · rcases findFirstWhere v.text (fun c => !p c) with e | ⟨sub, ch⟩
    · rfl
    · simp only [bind, Except.bind]
      split
      · rfl
      · exact view_substr_text _ _ _
  · rcases findLastWhere v.text (fun c => !p c) with e | ⟨sub, ch⟩
    · rfl
    · simp only [bind, Except.bind]
      split
      · rfl
      · exact view_substr_text _ _ _

/-- C87: the bytes that the returned views show are those of the model without addresses, about which the other properties
are (C29, C30, C42). -/
theorem C87_contents (v : View) (p : Char32 → Bool) (i j : Int) :
    (trimStartWhereV v p).map (·.text) = trimStartWhere v.text p ∧
    (trimEndWhereV v p).map (·.text) = trimEndWhere v.text p ∧
    (trimWhereV v p).map (·.text) = trimWhere v.text p ∧
    (getCharSubstringV v i j).map (·.text) = getCharSubstring v.text i j ∧
    (getCodepointSubstringV v i j).map (·.text) = getCodepointSubstring v.text i j := by
  refine ⟨(trim_views_text v p).1, (trim_views_text v p).2, ?_, ?_, ?_⟩
  · unfold trimWhereV trimWhere
    rw [← (trim_views_text v p).1]
    rcases trimStartWhereV v p with e | w
    · rfl
    · exact (trim_views_text w p).2
  · unfold getCharSubstringV getCharSubstring
    rcases getCharSubstringRange v.text i j with e | r
    · rfl
    · exact view_substr_text _ _ _
  · unfold getCodepointSubstringV getCodepointSubstring
    rcases getCodepointSubstringRange v.text i j with e | r
    · rfl
    · exact view_substr_text _ _ _

/-- An iterator without addresses. -/
def TokenIteratorV.erase (it : TokenIteratorV) : TokenIterator := ⟨it.str.text, it.token⟩

theorem nextV_erase (finder : Str → Res Subrange) (it : TokenIteratorV) :
    (it.next finder).map (fun x => (x.1, x.2.erase)) = it.erase.next finder := by
  unfold TokenIteratorV.next TokenIterator.next TokenIteratorV.erase
  by_cases h1 : it.token.nonempty = true
  · rw [if_pos h1, if_pos h1]
    simp only
    rw [← view_substr_text]
    rcases it.str.substr it.token.stop with e | v
    · rfl
    · simp only [Except.map, bind, Except.bind]
      rcases finder v.text with e | t
      · rfl
      · rcases ht : t.nonempty <;> simp [ht]
  · rw [if_neg h1, if_neg h1]
    by_cases h2 : it.token.start ≠ 0
    · rw [if_pos h2, if_pos h2]; rfl
    · rw [if_neg h2, if_neg h2]
      simp only [bind, Except.bind]
      rcases finder it.str.text with e | t
      · rfl
      · rcases ht : t.nonempty <;> simp [ht, Except.map]

theorem partV_erase (it : TokenIteratorV) : it.part.map (·.text) = it.erase.part ∧
    it.remainder.map (·.text) = it.erase.remainder := by
  unfold TokenIteratorV.part TokenIterator.part TokenIteratorV.remainder TokenIterator.remainder TokenIteratorV.erase
  constructor
  · by_cases h1 : it.token.nonempty = true
    · rw [if_pos h1, if_pos h1]; exact view_substr_text _ _ _
    · rw [if_neg h1, if_neg h1]
      split <;> rfl
  · by_cases h1 : it.token.nonempty = true ∨ it.token.start = 0
    · rw [if_pos h1, if_pos h1]; exact view_substr_text _ _ _
    · rw [if_neg h1, if_neg h1]; rfl

theorem splitLoopV_erase (finder : Str → Res Subrange) (params : SplitParams) (fuel : Nat) :
    ∀ (it : TokenIteratorV) (result : List View),
    (splitLoopV finder params fuel it result).map (fun x => (x.1.erase, x.2.map (·.text))) =
      splitLoop finder params fuel it.erase (result.map (·.text)) := by
  induction fuel with
  | zero => intros; rfl
  | succ fuel ih =>
    intro it result
    rw [splitLoopV, splitLoop, List.length_map]
    by_cases hm : result.length < params.maxSplits
    · rw [if_pos hm, if_pos hm, ← nextV_erase]
      rcases it.next finder with e | ⟨more, it'⟩
      · rfl
      · simp only [Except.map, bind, Except.bind]
        cases more with
        | false => rfl
        | true =>
          simp only [if_true]
          rw [← (partV_erase it').1]
          rcases it'.part with e | w
          · rfl
          · simp only [Except.map]
            by_cases hc : (!params.ignoreEmpty || !w.text.isEmpty) = true
            · rw [if_pos hc, if_pos hc]
              have := ih it' (result ++ [w])
              simp only [Except.map, List.map_append, List.map_cons, List.map_nil] at this
              exact this
            · rw [if_neg hc, if_neg hc]; exact ih it' result
    · rw [if_neg hm, if_neg hm]; rfl

/-- C87: the bytes that the views returned by `split_where` show are those of the model without addresses (C38–C40). -/
theorem C87_split_contents (v : View) (finder : Str → Res Subrange) (params : SplitParams) :
    (splitWhereV v finder params).map (·.map (·.text)) = splitWhere v.text finder params := by
  unfold splitWhereV splitWhere
  have h := splitLoopV_erase finder params (v.text.length + 2) (TokenIteratorV.mk' v) []
  have e : (TokenIteratorV.mk' v).erase = TokenIterator.mk' v.text := rfl
  rw [e, List.map_nil] at h
  rw [← h]
  rcases splitLoopV finder params (v.text.length + 2) (TokenIteratorV.mk' v) [] with e | ⟨it, result⟩
  · rfl
  · simp only [Except.map, bind, Except.bind]
    have hb : it.erase.toBool = it.toBool := rfl
    rw [hb]
    by_cases hb : it.toBool = true
    · rw [if_pos hb, if_pos hb, ← (partV_erase it).2]
      rcases it.remainder with e | w
      · rfl
      · simp only [Except.map]
        by_cases hc : (!params.ignoreEmpty || !w.text.isEmpty) = true
        · rw [if_pos hc, if_pos hc]; simp
        · rw [if_neg hc, if_neg hc]
    · rw [if_neg hb, if_neg hb]

/-! ### The addresses -/

/-- C87: the views returned by the substring functions point to a part of the argument. -/
theorem C87_substring (v w : View) (hv : v.data ≠ none) (i j : Int) :
    (getCharSubstringV v i j = .ok w → PartOf w v) ∧ (getCodepointSubstringV v i j = .ok w → PartOf w v) := by
  obtain ⟨d, hd⟩ := Option.ne_none_iff_exists'.mp hv
  unfold getCharSubstringV getCodepointSubstringV
  constructor
  · intro h
    rcases hr : getCharSubstringRange v.text i j with e | r
    · rw [hr] at h; cases h
    · rw [hr] at h; exact (view_substr_part hd h).1
  · intro h
    rcases hr : getCodepointSubstringRange v.text i j with e | r
    · rw [hr] at h; cases h
    · rw [hr] at h; exact (view_substr_part hd h).1

theorem partOf_trans {u v w : View} (h1 : PartOf u v) (h2 : PartOf v w) : PartOf u w := by
  obtain ⟨d, a, b, hd, ht, hw⟩ := h1
  obtain ⟨d', a', b', hd', ht', hw'⟩ := h2
  rw [hd] at hw'; injection hw' with hw'
  refine ⟨d', a' ++ a, b ++ b', hd', by rw [ht', ht]; simp, ?_⟩
  rw [hw, hw']; simp; omega

theorem trimStartV_part {v w : View} (hv : v.data ≠ none) {p : Char32 → Bool} (h : trimStartWhereV v p = .ok w) :
    w = .null ∨ PartOf w v := by
  obtain ⟨d, hd⟩ := Option.ne_none_iff_exists'.mp hv
  unfold trimStartWhereV at h
  rcases hr : findFirstWhere v.text (fun c => !p c) with e | ⟨sub, ch⟩
  · rw [hr] at h; cases h
  · rw [hr] at h
    simp only [bind, Except.bind] at h
    split at h
    · injection h with h; exact .inl h.symm
    · exact .inr (view_substr_part hd h).1

theorem trimEndV_part {v w : View} (hv : v.data ≠ none) {p : Char32 → Bool} (h : trimEndWhereV v p = .ok w) :
    w = .null ∨ PartOf w v := by
  obtain ⟨d, hd⟩ := Option.ne_none_iff_exists'.mp hv
  unfold trimEndWhereV at h
  rcases hr : findLastWhere v.text (fun c => !p c) with e | ⟨sub, ch⟩
  · rw [hr] at h; cases h
  · rw [hr] at h
    simp only [bind, Except.bind] at h
    split at h
    · injection h with h; exact .inl h.symm
    · exact .inr (view_substr_part hd h).1

theorem trimEndV_null {w : View} {p : Char32 → Bool} (h : trimEndWhereV .null p = .ok w) : w = .null := by
  have : trimEndWhereV .null p = .ok .null := by
    unfold trimEndWhereV
    have := (C21_find_last_where [] [] (fun c => !p c) npos (by simp)).2.1 [] .nil (by simp)
    simp only [List.append_nil] at this
    rw [show View.null.text = [] from rfl, this]; rfl
  rw [this] at h; injection h with h; exact h.symm

/-- C87: a view returned by a trim function points to a part of the argument, or is a null view. -/
theorem C87_trim_partial (v w : View) (hv : v.data ≠ none) (p : Char32 → Bool) (h : trimStartWhereV v p = .ok w ∨
    trimEndWhereV v p = .ok w ∨ trimWhereV v p = .ok w) : w = ⟨none, []⟩ ∨ PartOf w v := by
  rcases h with h | h | h
  · exact trimStartV_part hv h
  · exact trimEndV_part hv h
  · unfold trimWhereV at h
    rcases hr : trimStartWhereV v p with e | u
    · rw [hr] at h; cases h
    · rw [hr] at h
      simp only [bind, Except.bind] at h
      rcases trimStartV_part hv hr with rfl | hu
      · exact .inl (trimEndV_null h)
      · have hu' : u.data ≠ none := by obtain ⟨d, a, b, _, _, e⟩ := hu; rw [e]; simp
        rcases trimEndV_part hu' h with rfl | hw
        · exact .inl rfl
        · exact .inr (partOf_trans hw hu)

/-- C87: the same for the functions that are given a set of characters: what they return (compare C42), and where it is. -/
theorem C87_trim_chars_partial (v : View) (chars : List Char32) :
    ((trimStartV v chars).map (·.text) = trimStart v.text chars ∧ (trimEndV v chars).map (·.text) = trimEnd v.text chars ∧
      (trimV v chars).map (·.text) = trim v.text chars) ∧
    (v.data ≠ none → ∀ w, trimStartV v chars = .ok w ∨ trimEndV v chars = .ok w ∨ trimV v chars = .ok w → w = ⟨none, []⟩ ∨ PartOf w v) := by
  have h := C87_contents v (u32Contains chars) 0 0
  exact ⟨⟨h.1, h.2.1, h.2.2.1⟩, fun hv w hw => C87_trim_partial v w hv (u32Contains chars) hw⟩

example : trimV ⟨some 100, [0x20, 0x61, 0x20]⟩ [0x20] = .ok ⟨some 101, [0x61]⟩ := by decide +kernel

/-- C87 is false for the trim functions: if all code points are trimmed (also if there are none), the view that is returned
does not point to the argument: its `data()` is the null pointer. -/
theorem C87_false_trim (v : View) (p : Char32 → Bool) (hp : AllChars p v.text) (hl : v.text.length < SIZE_MOD) :
    trimStartWhereV v p = .ok ⟨none, []⟩ ∧ trimEndWhereV v p = .ok ⟨none, []⟩ ∧ trimWhereV v p = .ok ⟨none, []⟩ := by
  obtain ⟨cs, hd, hp⟩ := hp
  have hp' : ∀ x ∈ cs, (!p x) = false := by intro x hx; simp [hp x hx]
  have h1 : trimStartWhereV v p = .ok .null := by
    have := (C20_find_first_where [] v.text (fun c => !p c)).2.1 cs hd hp'
    simp only [List.nil_append, List.length_nil] at this
    unfold trimStartWhereV
    rw [this]; rfl
  refine ⟨h1, ?_, ?_⟩
  · have := (C21_find_last_where v.text [] (fun c => !p c) npos (by
      simp only [List.append_nil]; unfold SIZE_MOD at hl; unfold npos; omega)).2.1 cs hd hp'
    simp only [List.append_nil] at this
    unfold trimEndWhereV
    rw [this]; rfl
  · unfold trimWhereV
    rw [h1]
    simp only [bind, Except.bind]
    rcases hr : trimEndWhereV .null p with e | u
    · have := (C21_find_last_where [] [] (fun c => !p c) npos (by simp)).2.1 [] .nil (by simp)
      unfold trimEndWhereV at hr
      simp only [List.append_nil] at this
      rw [show View.null.text = [] from rfl, this] at hr
      cases hr
    · rw [trimEndV_null hr]; rfl

/-- the iterator will next search `v` -/
def ReadyV (it : TokenIteratorV) (v : View) : Prop :=
  (it.token.nonempty = true ∧ it.str.substr it.token.stop = .ok v) ∨ (it.token = ⟨0, 0⟩ ∧ it.str = v)

theorem nextV_ready {finder : Str → Res Subrange} {it v} (h : ReadyV it v) : it.next finder = (do
    let token ← finder v.text
    if !token.nonempty then .ok (true, ⟨v, ⟨npos, token.length⟩⟩)
    else .ok (true, ⟨v, token⟩)) := by
  unfold TokenIteratorV.next
  rcases h with ⟨h1, h2⟩ | ⟨h1, h2⟩
  · rw [if_pos h1, h2]; rfl
  · rw [h1, h2]; rfl

theorem keepViews_append (ig : Bool) (a b : List View) : keepViews ig (a ++ b) = keepViews ig a ++ keepViews ig b := by
  unfold keepViews; split <;> simp

theorem keepViews_cons (ig : Bool) (a : View) (b : List View) : keepViews ig (a :: b) = keepViews ig [a] ++ keepViews ig b := by
  rw [← keepViews_append]; rfl

theorem keepViews_single (ig : Bool) (w : View) :
    keepViews ig [w] = if (!ig || !w.text.isEmpty) = true then [w] else [] := by
  unfold keepViews
  cases ig with
  | false => rfl
  | true =>
    rcases w with ⟨d, t⟩
    cases t <;> simp

def splitFinishV (params : SplitParams) (it : TokenIteratorV) (result : List View) : Res (List View) :=
  if it.toBool then do
    let remainder ← it.remainder
    if !params.ignoreEmpty || !remainder.text.isEmpty then .ok (result ++ [remainder])
    else .ok result
  else .ok result

theorem splitLoopV_locate (finder : Str → Res Subrange)
    (hf : ∀ s r, s.length < SIZE_MOD → finder s = .ok r → r.length = 0 ∨ r.offset + r.length ≤ s.length) (max : Nat) (ig : Bool) (fuel : Nat) :
    ∀ (it : TokenIteratorV) (v : View) (d : Nat) (result ws : List View), v.data = some d → v.text.length < SIZE_MOD →
    ReadyV it v → (max ≤ result.length → it.token.nonempty = true) →
    (splitLoopV finder ⟨max, ig⟩ fuel it result >>= fun x => splitFinishV ⟨max, ig⟩ x.1 x.2) = .ok ws →
    ∃ ps last, unsplit ps last = v.text ∧ ws = result ++ keepViews ig (locate d ps last) := by
  induction fuel with
  | zero => intro it v d result ws _ _ _ _ h; cases h
  | succ fuel ih =>
    intro it v d result ws hd hs hr hm h
    rw [splitLoopV] at h
    by_cases hlt : result.length < max
    · rw [if_pos hlt, nextV_ready hr] at h
      rcases hx : finder v.text with e | ⟨o, l⟩
      · rw [hx] at h; cases h
      · rw [hx] at h
        simp only [bind, Except.bind] at h
        by_cases hl : l = 0
        · subst hl
          rw [if_pos (by rfl)] at h
          simp only [if_true] at h
          have hpart : TokenIteratorV.part ⟨v, ⟨npos, 0⟩⟩ = .ok v := by
            simp [TokenIteratorV.part, Subrange.nonempty, Subrange.start, npos]
          have hend : ∀ r, (splitLoopV finder ⟨max, ig⟩ fuel ⟨v, ⟨npos, 0⟩⟩ r >>= fun x => splitFinishV ⟨max, ig⟩ x.1 x.2) =
              .ok ws → ws = r := by
            intro r h
            cases fuel with
            | zero => cases h
            | succ f =>
              have hn : TokenIteratorV.next finder ⟨v, ⟨npos, 0⟩⟩ = .ok (false, ⟨v, ⟨npos, 0⟩⟩) := by
                simp [TokenIteratorV.next, Subrange.nonempty, Subrange.start, npos]
              rw [splitLoopV, hn] at h
              have : (if r.length < max then (.ok (⟨v, ⟨npos, 0⟩⟩, r) : Res (TokenIteratorV × List View))
                  else .ok (⟨v, ⟨npos, 0⟩⟩, r)) = .ok (⟨v, ⟨npos, 0⟩⟩, r) := by split <;> rfl
              simp only [bind, Except.bind, Bool.false_eq_true, if_false] at h
              rw [this] at h
              simp only [splitFinishV, TokenIteratorV.toBool, Subrange.nonempty, bne_self_eq_false, Bool.false_eq_true,
                if_false] at h
              injection h with h; exact h.symm
          refine ⟨[], v.text, rfl, ?_⟩
          rw [hpart] at h
          simp only at h
          rw [locate, ← hd, keepViews_single]
          by_cases hc : (!ig || !v.text.isEmpty) = true
          · rw [if_pos hc] at h ⊢
            rw [hend _ h]
          · rw [if_neg hc] at h ⊢
            rw [hend _ h, List.append_nil]
        · have hne : Subrange.nonempty ⟨o, l⟩ = true := by simp [Subrange.nonempty, hl]
          have hb := hf _ _ hs hx
          simp only [hl, false_or] at hb
          rw [if_neg (by simp [hne])] at h
          simp only [if_true] at h
          have e1 : (v.text.take o).length = o := by simp; omega
          have e2 : ((v.text.drop o).take l).length = l := by simp; omega
          have e : v.text = v.text.take o ++ (v.text.drop o).take l ++ v.text.drop (o + l) := by
            rw [List.append_assoc, ← List.drop_drop, List.take_append_drop, List.take_append_drop]
          have hpart : TokenIteratorV.part ⟨v, ⟨o, l⟩⟩ = .ok ⟨some d, v.text.take o⟩ := by
            unfold TokenIteratorV.part
            rw [if_pos hne]
            unfold View.substr substr
            rw [if_neg (by omega)]
            simp [hd, Subrange.start, bind, Except.bind]
          have hready : ReadyV ⟨v, ⟨o, l⟩⟩ ⟨some (d + o + l), v.text.drop (o + l)⟩ := by
            left
            refine ⟨hne, ?_⟩
            have hstop : Subrange.stop ⟨o, l⟩ = o + l := by
              unfold Subrange.stop sizeAdd; exact Nat.mod_eq_of_lt (by simp only; omega)
            simp only [hstop]
            unfold View.substr substr
            rw [if_neg (by omega), List.take_of_length_le (by unfold npos; unfold SIZE_MOD at hs; simp; omega)]
            simp [hd, bind, Except.bind]; omega
          rw [hpart] at h
          simp only at h
          have step : ∀ r, (max ≤ r.length → Subrange.nonempty ⟨o, l⟩ = true) →
              (splitLoopV finder ⟨max, ig⟩ fuel ⟨v, ⟨o, l⟩⟩ r >>= fun x => splitFinishV ⟨max, ig⟩ x.1 x.2) = .ok ws →
              ∃ ps last, unsplit ps last = v.text.drop (o + l) ∧ ws = r ++ keepViews ig (locate (d + o + l) ps last) :=
            fun r h1 h2 => ih _ _ _ r ws rfl (by simp; omega) hready h1 h2
          have fin : ∀ r, (∃ ps last, unsplit ps last = v.text.drop (o + l) ∧
              ws = r ++ keepViews ig (locate (d + o + l) ps last)) → r = result ++ keepViews ig [⟨some d, v.text.take o⟩] →
              ∃ ps last, unsplit ps last = v.text ∧ ws = result ++ keepViews ig (locate d ps last) := by
            rintro r ⟨ps, last, k1, k2⟩ rfl
            refine ⟨(v.text.take o, (v.text.drop o).take l) :: ps, last, ?_, ?_⟩
            · rw [unsplit, k1]; exact e.symm
            · rw [locate, keepViews_cons, e1, e2, k2, List.append_assoc]
          have hk := keepViews_single ig ⟨some d, v.text.take o⟩
          by_cases hc : (!ig || !(v.text.take o).isEmpty) = true
          · rw [if_pos hc] at h
            rw [if_pos hc] at hk
            exact fin _ (step _ (fun _ => hne) h) (by rw [hk])
          · rw [if_neg hc] at h
            rw [if_neg hc] at hk
            exact fin _ (step _ (fun _ => hne) h) (by rw [hk]; simp)
    · rw [if_neg hlt] at h
      have hne := hm (by omega)
      have hsub : it.str.substr it.token.stop = .ok v := by
        rcases hr with ⟨_, h⟩ | ⟨h, _⟩
        · exact h
        · rw [h] at hne; simp [Subrange.nonempty] at hne
      simp only [bind, Except.bind, splitFinishV, TokenIteratorV.toBool, TokenIteratorV.remainder] at h
      rw [if_pos hne, if_pos (.inl hne), hsub] at h
      refine ⟨[], v.text, rfl, ?_⟩
      simp only at h
      rw [locate, ← hd, keepViews_single]
      split at h
      · next hc => rw [if_pos hc]; injection h with h; exact h.symm
      · next hc => rw [if_neg hc, List.append_nil]; injection h with h; exact h.symm

/-- C87: whenever `split_where` returns, for any finder that reports ranges inside of the text it is given, the returned views
are those of the pieces of a partition of the argument, each at the address of its piece, also the empty ones. -/
theorem C87_split (v : View) (d : Nat) (hd : v.data = some d) (hl : v.text.length < SIZE_MOD) (finder : Str → Res Subrange)
    (hf : ∀ s r, s.length < SIZE_MOD → finder s = .ok r → r.length = 0 ∨ r.offset + r.length ≤ s.length) (n : Nat) (hn : 0 < n) (ig : Bool)
    (ws : List View) (h : splitWhereV v finder ⟨n, ig⟩ = .ok ws) :
    ∃ ps last, unsplit ps last = v.text ∧ ws = keepViews ig (locate d ps last) := by
  obtain ⟨ps, last, h1, h2⟩ := splitLoopV_locate finder hf n ig (v.text.length + 2) (TokenIteratorV.mk' v) v d [] ws hd hl
    (.inr ⟨rfl, rfl⟩) (by simp; omega) h
  exact ⟨ps, last, h1, by simpa using h2⟩

theorem locate_part (d : Nat) (ps : List (Str × Str)) (last : Str) : ∀ (v : View), v.data = some d →
    v.text = unsplit ps last → ∀ w ∈ locate d ps last, PartOf w v := by
  induction ps generalizing d with
  | nil =>
    intro v hd ht w hw
    simp only [locate, List.mem_cons, List.not_mem_nil, or_false] at hw
    subst hw
    exact ⟨d, [], [], hd, by rw [ht]; simp [unsplit], by simp⟩
  | cons x ps ih =>
    obtain ⟨p, t⟩ := x
    intro v hd ht w hw
    simp only [locate, List.mem_cons] at hw
    rcases hw with rfl | hw
    · exact ⟨d, [], t ++ unsplit ps last, hd, by rw [ht, unsplit]; simp, by simp⟩
    · refine partOf_trans (ih (d + p.length + t.length) ⟨_, unsplit ps last⟩ rfl rfl w hw)
        ⟨d, p ++ t, [], hd, by rw [ht, unsplit]; simp, by simp; omega⟩

theorem locate_le (d : Nat) (ps : List (Str × Str)) (last : Str) : ∀ w ∈ locate d ps last, ∃ e, w.data = some e ∧ d ≤ e := by
  induction ps generalizing d with
  | nil => intro w hw; simp [locate] at hw; subst hw; exact ⟨d, rfl, by omega⟩
  | cons x ps ih =>
    obtain ⟨p, t⟩ := x
    intro w hw
    simp only [locate, List.mem_cons] at hw
    rcases hw with rfl | hw
    · exact ⟨d, rfl, by omega⟩
    · obtain ⟨e, h1, h2⟩ := ih _ w hw
      exact ⟨e, h1, by omega⟩

theorem ascending_locate (d : Nat) (ps : List (Str × Str)) (last : Str) : Ascending (locate d ps last) := by
  induction ps generalizing d with
  | nil => simp [locate, Ascending]
  | cons x ps ih =>
    obtain ⟨p, t⟩ := x
    refine ⟨?_, ih _⟩
    intro w hw
    obtain ⟨e, h1, h2⟩ := locate_le _ _ _ w hw
    exact ⟨d, e, rfl, h1, by simp only; omega⟩

theorem ascending_sublist {a b : List View} (h : a.Sublist b) (hb : Ascending b) : Ascending a := by
  induction h with
  | slnil => trivial
  | cons x _ ih => exact ih hb.2
  | cons_cons x h ih => exact ⟨fun w hw => hb.1 w (h.subset hw), ih hb.2⟩

theorem keepViews_sublist (ig : Bool) (vs : List View) : (keepViews ig vs).Sublist vs := by
  unfold keepViews; split
  · exact List.filter_sublist
  · exact List.Sublist.refl _

/-- C87: the views returned by `split_where` point to parts of
the argument, in ascending order and without overlapping. -/
theorem C87_split_order (v : View) (hd : v.data ≠ none) (hl : v.text.length < SIZE_MOD) (finder : Str → Res Subrange)
    (hf : ∀ s r, s.length < SIZE_MOD → finder s = .ok r → r.length = 0 ∨ r.offset + r.length ≤ s.length) (n : Nat) (ig : Bool)
    (ws : List View) (h : splitWhereV v finder ⟨n, ig⟩ = .ok ws) :
    (∀ w ∈ ws, PartOf w v) ∧ Ascending ws := by
  obtain ⟨d, hd⟩ := Option.ne_none_iff_exists'.mp hd
  by_cases hn : n = 0
  · subst hn
    unfold splitWhereV at h
    rw [splitLoopV, if_neg (by simp)] at h
    injection h with h; subst h
    exact ⟨by simp, trivial⟩
  · obtain ⟨ps, last, h1, rfl⟩ := C87_split v d hd hl finder hf n (by omega) ig ws h
    refine ⟨fun w hw => locate_part d ps last v hd h1.symm w ((keepViews_sublist _ _).subset hw), ?_⟩
    exact ascending_sublist (keepViews_sublist _ _) (ascending_locate d ps last)

theorem SafeWith.of_ok {P : α → Prop} {r : Res α} (h : SafeWith P r) {a : α} (e : r = .ok a) : P a := by
  rcases h with h | ⟨b, h, hp⟩
  · rw [h] at e; cases e
  · rw [h] at e; injection e with e; exact e ▸ hp

/-- C87: the same for `split`, `split_lines` and `case_insensitive::split`, on any bytes, with any separator and limit. -/
theorem C87_library_splits (v : View) (hd : v.data ≠ none) (hl : Fits v.text) (params : SplitParams) (ws : List View)
    (sep : Str) (chars mem : List Char32)
    (h : splitV v sep params = .ok ws ∨ splitCharsV v chars params = .ok ws ∨ splitLinesV mem v params = .ok ws ∨
      CI.splitV v sep params = .ok ws ∨ CI.splitCharsV v chars params = .ok ws) :
    (∀ w ∈ ws, PartOf w v) ∧ Ascending ws := by
  have hl : v.text.length < SIZE_MOD := by have := fits_npos hl; unfold npos at this; unfold SIZE_MOD; omega
  obtain ⟨n, ig⟩ := params
  rcases h with h | h | h | h | h
  · refine C87_split_order v hd hl _ (fun s r _ hr => ?_) n ig ws h
    obtain ⟨r', h1, h2⟩ := findFirst_within' s sep
    rw [h1] at hr; injection hr with hr; exact hr ▸ h2
  · refine C87_split_order v hd hl _ (fun s r _ hr => ?_) n ig ws h
    refine SafeWith.of_ok (P := EmptyOr s.length) ?_ hr
    refine (findFirstWhere_within s _ 0 (Nat.zero_le _)).bind fun r hr => .ok ?_
    rcases hr with hr | hr
    · left; rw [hr]
    · exact .inr hr
  · exact C87_split_order v hd hl _ (fun s r hs hr =>
      SafeWith.of_ok (P := EmptyOr s.length) (findFirstNewline_within mem s hs 0 (Nat.zero_le _)) hr) n ig ws h
  · exact C87_split_order v hd hl _ (fun s r _ hr => SafeWith.of_ok (P := EmptyOr s.length)
      ((CI.findFirst_safe s sep 0 (Nat.zero_le _)).mono fun _ h => h.emptyOr) hr) n ig ws h
  · refine C87_split_order v hd hl _ (fun s r _ hr => ?_) n ig ws h
    refine SafeWith.of_ok (P := EmptyOr s.length) ?_ hr
    refine (findFirstWhere_within s _ 0 (Nat.zero_le _)).bind fun r hr => .ok ?_
    rcases hr with hr | hr
    · left; rw [hr]
    · exact .inr hr

/-- C87: what they return has the contents described by C38–C40 and C47. -/
theorem C87_library_contents (v : View) (params : SplitParams) (sep : Str) (chars mem : List Char32) :
    (splitV v sep params).map (·.map (·.text)) = split v.text sep params ∧
    (splitCharsV v chars params).map (·.map (·.text)) = splitChars v.text chars params ∧
    (splitLinesV mem v params).map (·.map (·.text)) = splitLines mem v.text params ∧
    (CI.splitV v sep params).map (·.map (·.text)) = CI.split v.text sep params ∧
    (CI.splitCharsV v chars params).map (·.map (·.text)) = CI.splitChars v.text chars params :=
  ⟨C87_split_contents .., C87_split_contents .., C87_split_contents .., C87_split_contents .., C87_split_contents ..⟩

example : splitV ⟨some 100, [0x61, 0x2C, 0x2C, 0x62]⟩ [0x2C] =
    .ok [⟨some 100, [0x61]⟩, ⟨some 102, []⟩, ⟨some 103, [0x62]⟩] := by decide +kernel
example : trimV ⟨some 100, [0x20, 0x61, 0x20]⟩ [0x20] = .ok ⟨some 101, [0x61]⟩ := by decide +kernel
example : trimV ⟨some 100, [0x20, 0x20]⟩ [0x20] = .ok ⟨none, []⟩ := by decide +kernel
example : getCharSubstringV ⟨some 100, [0x61, 0x62, 0x63]⟩ 1 2 = .ok ⟨some 101, [0x62]⟩ := by decide +kernel

end Ystring
