import Verif.Proofs.Text
import Verif.Spec.Template
/-
C92: breaking a list of strings into lines.
-/
namespace Ystring
open Spec Gen

/-- The elements of a line. -/
def interleave (sep : Txt) : List Txt → List Txt
  | [] => []
  | [x] => [x]
  | x :: xs => x :: sep :: interleave sep xs

theorem interleave_snoc (sep : Txt) {g : List Txt} (h : g ≠ []) (x : Txt) : interleave sep (g ++ [x]) = interleave sep g ++ [sep, x] := by
  induction g with
  | nil => exact absurd rfl h
  | cons y ys ih =>
    cases ys with
    | nil => rfl
    | cons z zs => simp only [List.cons_append, interleave] at ih ⊢; rw [ih (by simp)]

theorem interleave_length (sep : Txt) (g : List Txt) : (interleave sep g).length = 2 * g.length - 1 := by
  induction g with
  | nil => rfl
  | cons y ys ih =>
    cases ys with
    | nil => rfl
    | cons z zs => simp only [interleave, List.length_cons] at ih ⊢; omega

theorem interleave_flatten (sep : Txt) (g : List Txt) : (interleave sep g).flatten = joinTxt sep g := by
  induction g with
  | nil => rfl
  | cons y ys ih =>
    cases ys with
    | nil => simp [interleave, joinTxt]
    | cons z zs => simp only [interleave, joinTxt, List.flatten_cons] at ih ⊢; rw [ih]; simp

theorem joinTxt_snoc (sep : Txt) {g : List Txt} (h : g ≠ []) (x : Txt) : joinTxt sep (g ++ [x]) = joinTxt sep g ++ sep ++ x := by
  rw [← interleave_flatten, interleave_snoc sep h, List.flatten_append, interleave_flatten]; simp

theorem wrapped_snoc (sep nl : Txt) (gs : List (List Txt)) (g : List Txt) :
    wrapped sep nl (gs ++ [g]) = gs.map (fun g => joinTxt sep g ++ nl) ++ [joinTxt sep g] := by
  induction gs with
  | nil => simp [wrapped]
  | cons h gs ih =>
    cases gs with
    | nil => simp [wrapped]
    | cons k gs => simp only [List.cons_append, wrapped, List.map_cons, joinedBy_eq] at ih ⊢; rw [ih]

/-- Consecutive groups: the first string of the second one does not fit in the first one, together with the separator. -/
def Full (w : Nat) (sep nl : Txt) (gs : List (List Txt)) : Prop :=
  ∀ as g h bs, gs = as ++ g :: h :: bs → ∀ x, h.head? = some x → w < (joinTxt sep (g ++ [x])).length + nl.length

/-- A group may be followed by another one. -/
def Done (w : Nat) (sep nl : Txt) (g : List Txt) : Prop :=
  g ≠ [] ∧ (2 ≤ g.length → (joinTxt sep g).length ≤ w) ∧ (2 ≤ g.length → nl.length ≤ sep.length + 1 → (joinTxt sep g).length + nl.length ≤ w)

/-- The state of the builder: the groups that make up the lines, and the last one. -/
structure Built (w : Nat) (sep nl : Txt) (b : LineBuilder) (gs : List (List Txt)) (g : List Txt) : Prop where
  width : b.lineWidth = w
  lines : b.lines = gs.map (fun g => joinTxt sep g ++ nl)
  cur : b.cur = interleave sep g
  curWidth : b.curWidth = (joinTxt sep g).length
  done : ∀ g ∈ gs, Done w sep nl g
  nonempty : g ≠ []
  strings : ∀ x ∈ g, x ≠ []
  fits : 2 ≤ g.length → (joinTxt sep g).length ≤ w
  full : Full w sep nl (gs ++ [g])

theorem joinTxt_pos {sep : Txt} {g : List Txt} (h0 : g ≠ []) (h : ∀ x ∈ g, x ≠ []) : 0 < (joinTxt sep g).length := by
  cases g with
  | nil => exact absurd rfl h0
  | cons x xs =>
    have : 0 < x.length := List.length_pos_iff.mpr (h x (by simp))
    cases xs <;> simp [joinTxt] <;> omega

theorem Full.snoc {w : Nat} {sep nl : Txt} {gs : List (List Txt)} {g : List Txt} (h : Full w sep nl (gs ++ [g])) {x : Txt}
    (hx : w < (joinTxt sep (g ++ [x])).length + nl.length) : Full w sep nl (gs ++ [g] ++ [[x]]) := by
  intro as p q bs e y hy
  rcases List.eq_nil_or_concat bs with rfl | ⟨cs, c, rfl⟩
  · have e' : gs ++ [g] ++ [[x]] = as ++ [p] ++ [q] := by simp [e]
    obtain ⟨e1, e2⟩ := List.append_inj' e' rfl
    obtain ⟨-, e3⟩ := List.append_inj' e1 rfl
    cases e3; cases e2; cases hy; exact hx
  · have e' : gs ++ [g] ++ [[x]] = (as ++ p :: q :: cs) ++ [c] := by simp [e]
    exact h as p q cs (List.append_inj' e' rfl).1 y hy

theorem Full.extend {w : Nat} {sep nl : Txt} {gs : List (List Txt)} {g h : List Txt} (hf : Full w sep nl (gs ++ [g])) (h0 : g.head? = h.head?) :
    Full w sep nl (gs ++ [h]) := by
  intro as p q bs e y hy
  rcases List.eq_nil_or_concat bs with rfl | ⟨cs, c, rfl⟩
  · have e' : gs ++ [h] = as ++ [p] ++ [q] := by simp [e]
    obtain ⟨e1, e2⟩ := List.append_inj' e' rfl
    cases e2
    exact hf as p g [] (by simp [e1]) y (by rw [h0, hy])
  · have e' : gs ++ [h] = (as ++ p :: q :: cs) ++ [c] := by simp [e]
    have := (List.append_inj' e' rfl).1
    exact hf as p q (cs ++ [g]) (by simp [this]) y hy

theorem append_built {w : Nat} {sep nl : Txt} (hsep : sep ≠ []) {b : LineBuilder} {gs : List (List Txt)} {g : List Txt} (hb : Built w sep nl b gs g)
    {x : Txt} (hx : x ≠ []) (first : Txt) (fuel : Nat) :
    (b.curWidth + x.length + sep.length ≤ w → ∃ c, b.append (fuel + 1) x sep nl first = .ok c ∧ Built w sep nl c gs (g ++ [x])) ∧
    (w < b.curWidth + x.length + sep.length → (b.curWidth + nl.length ≤ w ∨ g.length = 1) →
      ∃ c, b.append (fuel + 1) x sep nl first = .ok c ∧ Built w sep nl c (gs ++ [g]) [x]) := by
  have hpos := joinTxt_pos (sep := sep) hb.nonempty hb.strings
  have h0 : ¬ b.curWidth = 0 := by rw [hb.curWidth]; omega
  constructor
  · intro h
    have h' : b.curWidth + x.length + sep.length ≤ b.lineWidth := by rw [hb.width]; exact h
    refine ⟨b.addText [sep, x], by rw [LineBuilder.append, if_neg h0, if_pos h'], ?_⟩
    refine ⟨hb.width, hb.lines, ?_, ?_, hb.done, by simp, ?_, ?_, ?_⟩
    · simp only [LineBuilder.addText]
      rw [interleave_snoc sep hb.nonempty, hb.cur, List.filter_cons_of_pos (by simp [hsep]), List.filter_cons_of_pos (by simp [hx])]; rfl
    · simp only [LineBuilder.addText]
      rw [joinTxt_snoc sep hb.nonempty, hb.curWidth]; simp
    · intro y hy
      rcases List.mem_append.mp hy with hy | hy
      · exact hb.strings y hy
      · rw [List.mem_singleton.mp hy]; exact hx
    · intro _
      rw [joinTxt_snoc sep hb.nonempty, List.length_append, List.length_append, ← hb.curWidth]; omega
    · apply hb.full.extend
      have := hb.nonempty
      cases g with
      | nil => exact absurd rfl this
      | cons y ys => rfl
  · intro h hor
    have h' : ¬ b.curWidth + x.length + sep.length ≤ b.lineWidth := by rw [hb.width]; omega
    refine ⟨(({ b with cur := b.cur ++ [nl] } : LineBuilder).newline.addText [x]), ?_, ?_⟩
    · rw [LineBuilder.append, if_neg h0, if_neg h']
      by_cases hn : b.curWidth + nl.length ≤ b.lineWidth
      · rw [if_pos hn]
      · rw [if_neg hn, if_pos]
        rcases hor with hor | hor
        · rw [hb.width] at hn; exact absurd hor hn
        · rw [hb.cur, interleave_length, hor]
    · refine ⟨hb.width, ?_, ?_, ?_, ?_, by simp, by simpa using hx, by simp, ?_⟩
      · simp only [LineBuilder.newline, LineBuilder.addText]
        rw [hb.lines, hb.cur, List.flatten_append, interleave_flatten]; simp
      · simp [LineBuilder.newline, LineBuilder.addText, interleave, hx]
      · simp [LineBuilder.newline, LineBuilder.addText, joinTxt]
      · intro k hk
        rcases List.mem_append.mp hk with hk | hk
        · exact hb.done k hk
        · rw [List.mem_singleton.mp hk]
          refine ⟨hb.nonempty, hb.fits, fun h2 _ => ?_⟩
          rcases hor with hor | hor
          · rw [← hb.curWidth]; exact hor
          · omega
      · apply hb.full.snoc
        rw [joinTxt_snoc sep hb.nonempty, List.length_append, List.length_append, ← hb.curWidth]; omega

theorem append_ok {w : Nat} {sep nl : Txt} (hsep : sep ≠ []) {b : LineBuilder} {gs : List (List Txt)} {g : List Txt} (hb : Built w sep nl b gs g)
    {x : Txt} (hx : x ≠ []) (first : Txt) :
    ∃ c gs' g', b.append 2 x sep nl first = .ok c ∧ Built w sep nl c gs' g' ∧ gs'.flatten ++ g' = gs.flatten ++ g ++ [x] := by
  obtain ⟨h1, h2⟩ := append_built hsep hb hx first 1
  by_cases ha : b.curWidth + x.length + sep.length ≤ w
  · obtain ⟨c, hc, hc'⟩ := h1 ha
    exact ⟨c, _, _, hc, hc', by simp⟩
  by_cases hor : b.curWidth + nl.length ≤ w ∨ g.length = 1
  · obtain ⟨c, hc, hc'⟩ := h2 (by omega) hor
    exact ⟨c, _, _, hc, hc', by simp⟩
  · -- the last string is moved to the next line
    simp only [not_or] at hor
    obtain ⟨k, last, rfl⟩ : ∃ k last, g = k ++ [last] := by
      rcases List.eq_nil_or_concat g with h | ⟨k, l, h⟩
      · exact absurd h hb.nonempty
      · exact ⟨k, l, by simpa using h⟩
    have hk : k ≠ [] := by rintro rfl; exact hor.2 rfl
    have hlast : last ≠ [] := hb.strings last (by simp)
    have hpos := joinTxt_pos (sep := sep) hb.nonempty hb.strings
    have h0 : ¬ b.curWidth = 0 := by rw [hb.curWidth]; omega
    have hlen : b.cur.length = 2 * k.length + 1 := by rw [hb.cur, interleave_length]; simp; omega
    have hkl : 0 < k.length := List.length_pos_iff.mpr hk
    let c := (({ b with cur := b.cur.take (b.cur.length - 2) ++ [nl] } : LineBuilder).newline.addText [last])
    have hjoin : b.curWidth = (joinTxt sep k).length + sep.length + last.length := by
      rw [hb.curWidth, joinTxt_snoc sep hk]; simp; omega
    have hfits := hb.fits (by simp; omega)
    have htake : b.cur.take (b.cur.length - 2) = interleave sep k := by
      rw [hlen, hb.cur, interleave_snoc sep hk]
      have : 2 * k.length + 1 - 2 = (interleave sep k).length := by rw [interleave_length]; omega
      rw [this, List.take_left]
    have hlastpos : 0 < last.length := List.length_pos_iff.mpr hlast
    have hc : Built w sep nl c (gs ++ [k]) [last] := by
      refine ⟨hb.width, ?_, ?_, ?_, ?_, by simp, by simpa using hlast, by simp, ?_⟩
      · show (b.lines ++ [(b.cur.take (b.cur.length - 2) ++ [nl]).flatten]) = _
        rw [htake, hb.lines, List.flatten_append, interleave_flatten]; simp
      · simp [c, LineBuilder.newline, LineBuilder.addText, interleave, hlast]
      · simp [c, LineBuilder.newline, LineBuilder.addText, joinTxt]
      · intro j hj
        rcases List.mem_append.mp hj with hj | hj
        · exact hb.done j hj
        · rw [List.mem_singleton.mp hj]
          rw [← hb.curWidth] at hfits
          exact ⟨hk, fun _ => by omega, fun _ _ => by omega⟩
      · refine Full.snoc (g := k) ?_ ?_
        · refine hb.full.extend ?_
          cases k with
          | nil => exact absurd rfl hk
          | cons y ys => rfl
        · rw [← hb.curWidth]; omega
    have hstep : b.append 2 x sep nl first = c.append 1 x sep nl [] := by
      rw [LineBuilder.append, if_neg h0, if_neg (by rw [hb.width]; exact ha), if_neg (by rw [hb.width]; exact hor.1), if_neg (by omega), hb.cur,
        interleave_snoc sep hk, List.getLast?_append]
      simp only [List.getLast?_cons_cons, List.getLast?_singleton, Option.some_or]
      rw [← interleave_snoc sep hk, ← hb.cur]
    obtain ⟨g1, g2⟩ := append_built hsep hc hx [] 0
    rw [hstep]
    by_cases ha' : c.curWidth + x.length + sep.length ≤ w
    · obtain ⟨d, hd, hd'⟩ := g1 ha'
      exact ⟨d, _, _, hd, hd', by simp⟩
    · obtain ⟨d, hd, hd'⟩ := g2 (by omega) (.inr rfl)
      exact ⟨d, _, _, hd, hd', by simp⟩

theorem appendAll_ok {w : Nat} {sep nl : Txt} (hsep : sep ≠ []) (ss : List Txt) (hs : ∀ s ∈ ss, s ≠ []) {b : LineBuilder} {gs : List (List Txt)} {g : List Txt}
    (hb : Built w sep nl b gs g) :
    ∃ c gs' g', LineBuilder.appendAll sep nl b ss = .ok c ∧ Built w sep nl c gs' g' ∧ gs'.flatten ++ g' = gs.flatten ++ g ++ ss := by
  induction ss generalizing b gs g with
  | nil => exact ⟨b, gs, g, rfl, hb, by simp⟩
  | cons s ss ih =>
    obtain ⟨c, gs', g', h1, h2, h3⟩ := append_ok hsep hb (hs s (by simp)) []
    obtain ⟨d, gs'', g'', k1, k2, k3⟩ := ih (fun x hx => hs x (by simp [hx])) h2
    refine ⟨d, gs'', g'', ?_, k2, by rw [k3, h3]; simp⟩
    rw [LineBuilder.appendAll, h1]; exact k1

/-- C92: `join` puts all the strings in order into lines, with a separator between the strings of a line and the other one at the end of each line but
the last. Lines with several strings are not too long, and no line could take the next string too. -/
theorem C92_join_partial (ss : List Txt) (hs : ∀ s ∈ ss, s ≠ []) (w : Nat) (sep nl firstSep firstNl : Txt) (hsep : sep ≠ []) :
    ∃ gs, joinLines ss w sep nl firstSep firstNl = .ok (wrapped sep nl gs) ∧ gs.flatten = ss ∧ (∀ g ∈ gs, g ≠ []) ∧
      (∀ g ∈ gs, 2 ≤ g.length → (joinedBy sep g).length ≤ w) ∧
      (nl.length ≤ sep.length + 1 → ∀ as g bs, gs = as ++ g :: bs → bs ≠ [] → 2 ≤ g.length → (joinedBy sep g).length + nl.length ≤ w) ∧
      (∀ as g h bs, gs = as ++ g :: h :: bs → ∀ x, h.head? = some x → w < (joinedBy sep (g ++ [x])).length + nl.length) := by
  simp only [joinedBy_eq] at *
  cases ss with
  | nil => exact ⟨[], rfl, rfl, by simp, by simp, by simp, by simp⟩
  | cons s ss =>
    have hne : s ≠ [] := hs s (by simp)
    let b : LineBuilder := ⟨w, [], [s], s.length⟩
    have hb : Built w sep nl b [] [s] := by
      refine ⟨rfl, rfl, rfl, rfl, by simp, by simp, by simpa using hne, by simp, ?_⟩
      intro as p q bs e
      have := congrArg List.length e
      simp at this
      omega
    obtain ⟨c, gs, g, h1, h2, h3⟩ := appendAll_ok hsep ss (fun x hx => hs x (by simp [hx])) hb
    have hfirst : LineBuilder.append 2 ⟨w, [], [], 0⟩ s firstSep firstNl [] = .ok b := by
      simp [LineBuilder.append, LineBuilder.addText, hne, b]
    refine ⟨gs ++ [g], ?_, by simpa using h3, ?_, ?_, ?_, h2.full⟩
    · unfold joinLines LineBuilder.join
      simp only [hfirst, bind, Except.bind, h1]
      rw [LineBuilder.build, if_pos]
      · rw [LineBuilder.newline, wrapped_snoc, h2.lines, h2.cur, interleave_flatten]
      · rw [h2.cur]
        intro e
        have := interleave_length sep g
        have h0 := List.length_pos_iff.mpr h2.nonempty
        rw [e] at this
        simp at this; omega
    · intro k hk
      rcases List.mem_append.mp hk with hk | hk
      · exact (h2.done k hk).1
      · rw [List.mem_singleton.mp hk]; exact h2.nonempty
    · intro k hk
      rcases List.mem_append.mp hk with hk | hk
      · exact (h2.done k hk).2.1
      · rw [List.mem_singleton.mp hk]; exact h2.fits
    · intro hnl as k bs e hbs h2k
      have : k ∈ gs := by
        rcases List.eq_nil_or_concat bs with rfl | ⟨cs, d, rfl⟩
        · exact absurd rfl hbs
        · have e' : gs ++ [g] = (as ++ k :: cs) ++ [d] := by simp [e]
          rw [(List.append_inj' e' rfl).1]; simp
      exact (h2.done k this).2.2 h2k hnl

example : joinLines [t!"aa", t!"bb", t!"cccccccc", t!"d"] 6 (t!", ") (t!",") = .ok [t!"aa,", t!"bb,", t!"cccccccc,", t!"d"] := rfl

/-- C92 is false for an empty separator: a string is lost if it stands before the last one in a line that has no room for the separator at its end. -/
theorem C92_false_empty_sep : joinLines [t!"ab", t!"cd", t!"e"] 4 [] (t!",") = .ok [t!",", t!"cde"] := rfl

end Ystring
