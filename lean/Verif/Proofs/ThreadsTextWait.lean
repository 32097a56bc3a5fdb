import Verif.Proofs.ThreadsMoreWait
import Verif.Model.ThreadsText
/- The number of accesses of the functions of Verif/Model/ThreadsText.lean, whatever they read -/
namespace Ystring.Thr
open Ptr Spec

variable {U : Prop} {r : Range}

/-- as `wp_next`; at the end nothing is decoded, elsewhere something is, and it takes at most eight accesses -/
theorem wp_next' {β : Type} {it c : Nat} {Q : β → Nat → Prop} {B : Nat} {f : Option (Char32 × Nat) → Prog β}
    (hp : r.first ≤ it) (hl : it ≤ r.last) (hB : it < r.last → c + 8 ≤ B)
    (hn : it = r.last → Wp (Ends U B) Q (f none) c)
    (hs : ∀ ch it' c', it < it' → it' ≤ r.last → c' ≤ c + 2 * (it' - it) → c' ≤ c + 8 → Wp (Ends U B) Q (f (some (ch, it'))) c') :
    Wp (Ends U B) Q (safeDecodeNext r it >>= f) c := by
  refine Wp.bind ?_
  unfold safeDecodeNext
  split
  · exact hn (by assumption)
  · refine Wp.bind (Wp.mono ?_ (wp_decodeNext hp hl))
    rintro ⟨ch, it'⟩ c' ⟨k1, k2, k3, k4⟩
    dsimp only at *
    split
    · exact ⟨by have := hB (by omega); omega, by decide, by intro h; cases h⟩
    · rcases k4 with k4 | ⟨k4, k5⟩
      · contradiction
      · exact hs ch it' c' k4 k2 k5 k3

theorem wp_prev' (hU : U) {β : Type} {it c : Nat} {Q : β → Nat → Prop} {B : Nat} {f : Option (Char32 × Nat) → Prog β}
    (hp : r.first ≤ it) (hl : it ≤ r.last) (hB : c + 15 ≤ B)
    (hn : it = r.first → Wp (Ends U B) Q (f none) c)
    (hs : ∀ ch it' c', r.first ≤ it' → it' < it → c' ≤ c + 3 * (it - it') → Wp (Ends U B) Q (f (some (ch, it'))) c') :
    Wp (Ends U B) Q (safeDecodePrev r it >>= f) c := by
  refine Wp.bind ?_
  unfold safeDecodePrev
  split
  · exact hn (by assumption)
  · refine Wp.bind (Wp.mono ?_ (wp_decodePrev (fun c h => ⟨by omega, by decide, fun _ => hU⟩) hp hl))
    rintro ⟨ch, it'⟩ c' ⟨k1, k2, k3, k4⟩
    dsimp only at *
    split
    · exact ⟨by omega, by decide, by intro h; cases h⟩
    · rcases k4 with k4 | ⟨k4, k5⟩
      · contradiction
      · exact hs ch it' c' k1 k4 k5

/-- one character backwards: at most fifteen accesses -/
theorem wp_safeDecodePrev15 (hU : U) {it c B : Nat} (hp : r.first ≤ it) (hl : it ≤ r.last) (hB : c + 15 ≤ B) :
    Wp (Ends U B) (fun _ c' => c' ≤ c + 15) (safeDecodePrev r it) c := by
  unfold safeDecodePrev
  split
  · show c ≤ c + 15; omega
  · refine Wp.bind (Wp.mono ?_ (wp_decodePrev (fun c h => ⟨by omega, by decide, fun _ => hU⟩) hp hl))
    rintro ⟨ch, it'⟩ c' ⟨k1, k2, k3, k4⟩
    dsimp only at *
    split
    · exact ⟨by omega, by decide, by intro h; cases h⟩
    · exact k3

theorem wp_nextCharLoop {B it0 c0 : Nat} (hB : c0 + 2 * (r.last - it0) + 8 ≤ B) : ∀ (fuel it c : Nat), r.first ≤ it → it0 < it → it ≤ r.last →
    r.last - it < fuel → c ≤ c0 + 2 * (it - it0) →
    Wp (Ends U B) (fun e c' => it0 < e ∧ e ≤ r.last ∧ c' ≤ c0 + 2 * (e - it0) + 8 ∧ c' ≤ c0 + 2 * (r.last - it0)) (nextCharLoop r fuel it it) c
  | 0, _, _, _, _, _, h, _ => by omega
  | fuel + 1, it, c, h1, h2, h3, h4, h5 => by
    unfold nextCharLoop
    refine wp_next' h1 h3 (fun _ => by omega) (fun _ => ⟨h2, h3, by omega, by omega⟩) fun ch it' c' k1 k2 k3 k4 => ?_
    dsimp only
    split
    · exact wp_nextCharLoop hB fuel it' c' (by omega) (by omega) k2 (by omega) (by omega)
    · exact ⟨h2, h3, by omega, by omega⟩

theorem stop_of_le {o e n : Nat} (h1 : o ≤ e) (h2 : e ≤ n) (h3 : n + 12 < 2 ^ 64) : (⟨o, e - o⟩ : Subrange).stop = e := by
  show (o + (e - o)) % SIZE_MOD = e
  rw [show o + (e - o) = e by omega]
  exact Nat.mod_eq_of_lt (by show e < 2 ^ 64; omega)

theorem sizeSub_of_le {o e n : Nat} (h1 : o ≤ e) (h2 : e ≤ n) (h3 : n + 12 < 2 ^ 64) : sizeSub e o = e - o := by
  unfold sizeSub
  have : (SIZE_MOD : Nat) = 2 ^ 64 := rfl
  rw [this]
  omega

/-- the next character: nothing at the end, and elsewhere at most two accesses for each byte of it and eight for what follows -/
def NextChar (n o c : Nat) (x : Subrange) (c' : Nat) : Prop :=
  (o = n ∧ x = ⟨o, 0⟩ ∧ c' = c) ∨ (∃ e, x = ⟨o, e - o⟩ ∧ o < e ∧ e ≤ n ∧ c' ≤ c + 2 * (e - o) + 8 ∧ c' ≤ c + 2 * (n - o))

theorem wp_getNextCharRange {o c B n : Nat} (hn : n = r.last - r.first) (h : r.first ≤ r.last) (hs : n + 12 < 2 ^ 64) (ho : o ≤ n)
    (hB : o < n → c + 2 * (n - o) + 8 ≤ B) : Wp (Ends U B) (NextChar n o c) (getNextCharRange r o) c := by
  unfold getNextCharRange
  refine wp_ptr (by omega) (by omega) ?_
  refine wp_next' (by omega) (by omega) (fun _ => by omega) (fun h => .inl ⟨by omega, rfl, rfl⟩) fun ch it' c' k1 k2 k3 k4 => ?_
  dsimp only
  refine Wp.bind (Wp.mono ?_ (wp_nextCharLoop (it0 := r.first + o) (c0 := c) (by omega) _ it' c' (by omega) k1 k2 (by omega) k3))
  rintro e c'' ⟨l1, l2, l3, l4⟩
  refine .inr ⟨e - r.first, ?_, by omega, by omega, by omega, by omega⟩
  rw [sizeSub_of_le (n := n) (by omega) (by omega) hs]

theorem wp_countCharsLoop {n : Nat} (hn : n = r.last - r.first) (h : r.first ≤ r.last) (hs : n + 12 < 2 ^ 64) : ∀ (fuel o x c : Nat),
    o ≤ n → n - o < fuel → c ≤ 10 * o → Wp (Ends U (10 * n)) (fun _ c => c ≤ 10 * n) (countCharsLoop r fuel o x) c
  | 0, _, _, _, _, h, _ => by omega
  | fuel + 1, o, x, c, h1, h2, h3 => by
    unfold countCharsLoop
    split
    · refine Wp.bind (Wp.mono ?_ (wp_getNextCharRange (c := c) hn h hs h1 (fun _ => by omega)))
      rintro y c' (⟨k1, _⟩ | ⟨e, rfl, k1, k2, k3, k4⟩)
      · omega
      · rw [stop_of_le (by omega) k2 hs]
        exact wp_countCharsLoop hn h hs fuel e _ c' k2 (by omega) (by omega)
    · show c ≤ _; omega

theorem wp_getCharPosFwd {n : Nat} (hn : n = r.last - r.first) (h : r.first ≤ r.last) (hs : n + 12 < 2 ^ 64) : ∀ (pos o c : Nat),
    o ≤ n → c ≤ 10 * o →
    Wp (Ends U (10 * n)) (fun x c => (x = npos ∧ c ≤ 10 * n) ∨ (x ≤ n ∧ c ≤ 10 * x)) (getCharPosFwd r pos o) c
  | 0, o, c, h1, h2 => .inr ⟨h1, h2⟩
  | pos + 1, o, c, h1, h2 => by
    unfold getCharPosFwd
    refine Wp.bind (Wp.mono ?_ (wp_getNextCharRange (c := c) hn h hs h1 (fun _ => by omega)))
    rintro y c' (⟨k1, rfl, rfl⟩ | ⟨e, rfl, k1, k2, k3, k4⟩)
    · rw [if_pos (by rfl)]
      exact .inl ⟨rfl, by omega⟩
    · rw [stop_of_le (by omega) k2 hs]
      split
      · exact .inl ⟨rfl, by omega⟩
      · exact wp_getCharPosFwd hn h hs pos e c' k2 (by omega)

theorem wp_prevCharLoop (hU : U) {B it0 c0 : Nat} (hB : c0 + 3 * (it0 - r.first) + 15 ≤ B) : ∀ (fuel it c : Nat), r.first ≤ it → it ≤ it0 →
    it ≤ r.last → it - r.first < fuel → c ≤ c0 + 3 * (it0 - it) →
    Wp (Ends U B) (fun s c' => r.first ≤ s ∧ (s < it0 ∨ it0 = r.first) ∧ s ≤ it0 ∧ c' ≤ c0 + 3 * (it0 - s)) (prevCharLoop r fuel it) c
  | 0, _, _, _, _, _, h, _ => by omega
  | fuel + 1, it, c, h1, h2, h3, h4, h5 => by
    unfold prevCharLoop
    refine wp_prev' hU h1 h3 (by omega) (fun _ => ⟨h1, by omega, by omega, by omega⟩) fun ch it' c' k1 k2 k3 => ?_
    dsimp only
    split
    · exact wp_prevCharLoop hU hB fuel it' c' k1 (by omega) (by omega) (by omega) (by omega)
    · exact ⟨k1, .inl (by omega), by omega, by omega⟩

/-- the character in front of an offset: at most three accesses for each byte of it -/
def PrevChar (o c : Nat) (x : Subrange) (c' : Nat) : Prop :=
  ∃ s, x = ⟨s, o - s⟩ ∧ (s < o ∨ o = 0) ∧ s ≤ o ∧ c' ≤ c + 3 * (o - s)

theorem wp_getPrevCharRange (hU : U) {o c B n : Nat} (hn : n = r.last - r.first) (h : r.first ≤ r.last) (hs : n + 12 < 2 ^ 64) (ho : o ≤ n)
    (hB : c + 3 * o + 15 ≤ B) : Wp (Ends U B) (PrevChar o c) (getPrevCharRange r o) c := by
  unfold getPrevCharRange
  refine wp_ptr (by omega) (by omega) ?_
  refine Wp.bind (Wp.mono ?_ (wp_prevCharLoop hU (it0 := r.first + o) (c0 := c) (by omega) _ (r.first + o) c (by omega) (Nat.le_refl _) (by omega)
    (by omega) (by omega)))
  rintro s c' ⟨l1, l2, l3, l4⟩
  refine ⟨s - r.first, ?_, by omega, by omega, by omega⟩
  rw [sizeSub_of_le (n := n) (by omega) ho hs]

theorem wp_getCharPosBwd (hU : U) {n : Nat} (hn : n = r.last - r.first) (h : r.first ≤ r.last) (hs : n + 12 < 2 ^ 64) : ∀ (pos o c : Nat),
    o ≤ n → c ≤ 3 * (n - o) →
    Wp (Ends U (3 * n + 15)) (fun x c => (x = npos ∧ c ≤ 3 * n) ∨ (x ≤ n ∧ c ≤ 3 * (n - x))) (getCharPosBwd r pos o) c
  | 0, o, c, h1, h2 => .inr ⟨h1, h2⟩
  | pos + 1, o, c, h1, h2 => by
    unfold getCharPosBwd
    refine Wp.bind (Wp.mono ?_ (wp_getPrevCharRange (c := c) hU hn h hs h1 (by omega)))
    rintro y c' ⟨s, rfl, k1, k2, k3⟩
    split
    · exact .inl ⟨rfl, by omega⟩
    · exact wp_getCharPosBwd hU hn h hs pos s c' (by omega) (by omega)

theorem wp_getCharPos {n : Nat} (hn : n = r.last - r.first) (h : r.first ≤ r.last) (hs : n + 12 < 2 ^ 64) (pos : Int) (hU : pos ≥ 0 ∨ U) :
    Wp (Ends U (if pos ≥ 0 then 10 * n else 3 * n + 15)) (fun _ c => c ≤ if pos ≥ 0 then 10 * n else 3 * n + 15) (getCharPos r pos) 0 := by
  unfold getCharPos
  by_cases hp : pos ≥ 0
  · simp only [if_pos hp]
    refine Wp.mono ?_ (wp_getCharPosFwd hn h hs _ 0 0 (by omega) (by omega))
    rintro x c (⟨_, k⟩ | ⟨_, k⟩) <;> omega
  · simp only [if_neg hp]
    refine Wp.mono ?_ (wp_getCharPosBwd (hU.resolve_left hp) hn h hs _ (r.last - r.first) 0 (by omega) (by omega))
    rintro x c (⟨_, k⟩ | ⟨_, k⟩) <;> omega

theorem wp_getCharRange {n : Nat} (hn : n = r.last - r.first) (h : r.first ≤ r.last) (hs : n + 12 < 2 ^ 64) (pos : Int) (hU : pos ≥ 0 ∨ U) :
    Wp (Ends U (if pos ≥ 0 then 10 * n else 3 * n + 15)) (fun _ c => c ≤ if pos ≥ 0 then 10 * n else 3 * n + 15) (getCharRange r pos) 0 := by
  unfold getCharRange
  by_cases hp : pos ≥ 0
  · simp only [if_pos hp]
    unfold getCharPos
    rw [if_pos hp]
    refine Wp.bind (Wp.mono ?_ (wp_getCharPosFwd hn h hs _ 0 0 (by omega) (by omega)))
    rintro x c (⟨rfl, k⟩ | ⟨k1, k2⟩)
    · rw [if_pos rfl]; exact k
    · split
      · show c ≤ _; omega
      · refine Wp.mono ?_ (wp_getNextCharRange (c := c) hn h hs k1 (fun _ => by omega))
        rintro y c' (⟨k1, rfl, rfl⟩ | ⟨e, rfl, k1, k2, k3, k4⟩) <;> omega
  · have hU := hU.resolve_left hp
    simp only [if_neg hp]
    split
    · unfold getCharPos
      rw [if_neg (by omega)]
      refine Wp.bind (Wp.mono ?_ (wp_getCharPosBwd hU hn h hs _ (r.last - r.first) 0 (by omega) (by omega)))
      rintro x c (⟨rfl, k⟩ | ⟨k1, k2⟩)
      · rw [if_pos rfl]; show c ≤ _; omega
      · split
        · show c ≤ _; omega
        · refine Wp.mono ?_ (wp_getPrevCharRange (c := c) hU hn h hs k1 (by omega))
          rintro y c' ⟨s, rfl, k1, k2, k3⟩
          omega
    · refine Wp.mono ?_ (wp_getPrevCharRange (c := 0) hU hn h hs (o := r.last - r.first) (by omega) (by omega))
      rintro y c' ⟨s, rfl, k1, k2, k3⟩
      omega

theorem wp_reverseLoop (hU : U) {n : Nat} (hn : n = r.last - r.first) (h : r.first ≤ r.last) (hs : n + 12 < 2 ^ 64) : ∀ (fuel o : Nat) (x : Str) (c : Nat),
    o ≤ n → o < fuel → c ≤ 4 * (n - o) → Wp (Ends U (4 * n + 15)) (fun _ c => c ≤ 4 * n + 15) (reverseLoop r fuel o x) c
  | 0, _, _, _, _, h, _ => by omega
  | fuel + 1, o, x, c, h1, h2, h3 => by
    unfold reverseLoop
    split
    · refine Wp.bind (Wp.mono ?_ (wp_getPrevCharRange (c := c) hU hn h hs h1 (by omega)))
      rintro y c' ⟨s, rfl, k1, k2, k3⟩
      rw [stop_of_le k2 h1 hs]
      have e : (⟨s, o - s⟩ : Subrange).start = s := rfl
      rw [e]
      refine Wp.bind (wp_copyOut _ _ _ _ (by omega) (by omega) fun y => ?_)
      exact wp_reverseLoop hU hn h hs fuel s _ _ (by omega) (by omega) (by omega)
    · show c ≤ _; omega

/-! ### Code points by index -/

theorem wp_skipNextN {B : Nat} (hB : 2 * (r.last - r.first) ≤ B) : ∀ (pos it c : Nat), r.first ≤ it → it ≤ r.last → c ≤ 2 * (it - r.first) →
    Wp (Ends U B) (fun x c => r.first ≤ x.2 ∧ x.2 ≤ r.last ∧ c ≤ 2 * (x.2 - r.first)) (skipNextN r pos it) c
  | 0, it, c, h1, h2, h3 => ⟨h1, h2, h3⟩
  | pos + 1, it, c, h1, h2, h3 => by
    unfold skipNextN
    by_cases he : it = r.last
    · unfold skipNext
      rw [if_pos he]
      exact ⟨h1, h2, h3⟩
    · refine Wp.bind (Wp.mono ?_ (wp_skipNext' h1 (by omega)))
      rintro ⟨b, i⟩ c' ⟨l1, l2, l3⟩
      dsimp only at *
      cases b
      · exact ⟨by show r.first ≤ i; omega, l2, by show c' ≤ 2 * (i - r.first); omega⟩
      · exact wp_skipNextN hB pos i c' (by omega) l2 (by omega)

/-- one step back: at most six accesses for each byte -/
theorem wp_skipPrevLoop' {E : Err → Nat → Prop} {it0 c0 : Nat} (h0 : it0 ≤ r.last) : ∀ (fuel n it c d : Nat), r.first < it → it - r.first ≤ fuel →
    it0 = it + d → n = d % 4294967296 → c ≤ c0 + d →
    Wp E (fun x c => r.first ≤ x.2 ∧ x.2 < it0 ∧ c ≤ c0 + 6 * (it0 - x.2)) (skipPrevLoop r fuel n it) c
  | 0, _, _, _, _, _, _, _, _, _ => by omega
  | fuel + 1, n, it, c, d, h1, h2, h3, h4, h5 => by
    unfold skipPrevLoop
    refine wp_back (by omega) (by omega) ?_
    refine wp_load (by omega) (by omega) fun b => ?_
    split
    · split
      · exact ⟨by show r.first ≤ it - 1; omega, by show it - 1 < _; omega, by show _ ≤ c0 + 6 * (it0 - (it - 1)); omega⟩
      · exact wp_skipPrevLoop' h0 fuel _ (it - 1) (c + 1) (d + 1) (by omega) (by omega) (by omega) (by omega) (by omega)
    · refine wp_load (by omega) (by omega) fun b => ?_
      generalize hk : (if b &&& 0x80 = 0 then 1
        else if b &&& 0xE0 = 0xC0 then 2
        else if b &&& 0xF0 = 0xE0 then 3
        else if b &&& 0xF8 = 0xF0 then 4
        else 4294967295) = k
      have hk' : k ≤ 4 ∨ k = 4294967295 := by
        rw [← hk]
        repeat' split
        all_goals omega
      dsimp only
      split
      · exact ⟨by show r.first ≤ it - 1; omega, by show it - 1 < _; omega, by show _ ≤ c0 + 6 * (it0 - (it - 1)); omega⟩
      · refine wp_ptr (by omega) (by omega) ?_
        exact ⟨by show r.first ≤ it - 1 + k; omega, by show it - 1 + k < _; omega, by show _ ≤ c0 + 6 * (it0 - (it - 1 + k)); omega⟩

theorem wp_skipPrevN {B n : Nat} (hn : n = r.last - r.first) (hB : 6 * n ≤ B) : ∀ (pos it c : Nat), r.first ≤ it → it ≤ r.last →
    c ≤ 6 * (r.last - it) →
    Wp (Ends U B) (fun x c => r.first ≤ x.2 ∧ x.2 ≤ r.last ∧ c ≤ 6 * n) (skipPrevN r pos it) c
  | 0, it, c, h1, h2, h3 => ⟨h1, h2, by omega⟩
  | pos + 1, it, c, h1, h2, h3 => by
    unfold skipPrevN skipPrev
    split
    · exact ⟨h1, h2, by omega⟩
    · refine Wp.bind (Wp.mono ?_ (wp_skipPrevLoop' (it0 := it) (c0 := c) h2 _ 0 it c 0 (by omega) (by omega) rfl rfl (by omega)))
      rintro ⟨b, i⟩ c' ⟨l1, l2, l3⟩
      dsimp only at *
      cases b
      · exact ⟨l1, by show i ≤ _; omega, by omega⟩
      · exact wp_skipPrevN hn hB pos i c' l1 (by omega) (by omega)

theorem wp_getCodepoint {n : Nat} (hn : n = r.last - r.first) (h : r.first ≤ r.last) (pos : Int) (hU : pos ≥ 0 ∨ U) :
    Wp (Ends U (if pos ≥ 0 then 2 * n + 8 else 6 * n + 15)) (fun _ c => c ≤ if pos ≥ 0 then 2 * n + 8 else 6 * n + 15)
      (getCodepoint r pos) 0 := by
  unfold getCodepoint
  by_cases hp : pos ≥ 0
  · simp only [if_pos hp]
    refine Wp.bind (Wp.mono ?_ (wp_skipNextN (by omega) _ r.first 0 (Nat.le_refl _) h (by omega)))
    rintro ⟨q, i⟩ c ⟨k1, k2, k3⟩
    dsimp only at *
    refine wp_next k1 k2 (by omega) (by show c ≤ _; omega) fun ch i' c' l1 l2 l3 => ?_
    show c' ≤ _; omega
  · simp only [if_neg hp]
    have hU := hU.resolve_left hp
    refine Wp.bind (Wp.mono ?_ (wp_skipPrevN hn (by omega) _ r.last 0 h (Nat.le_refl _) (by omega)))
    rintro ⟨q, i⟩ c ⟨k1, k2, k3⟩
    dsimp only at *
    refine Wp.bind (Wp.mono ?_ (wp_safeDecodePrev15 hU k1 k2 (c := c) (B := 6 * n + 15) (by omega)))
    rintro (_ | ⟨ch, i'⟩) c' l <;> (show c' ≤ _; omega)

theorem wp_getCodepointPos {n : Nat} (hn : n = r.last - r.first) (h : r.first ≤ r.last) (pos : Int) (hU : pos ≠ PTRDIFF_MIN ∨ U) :
    Wp (Ends U (if pos ≥ 0 then 2 * n else 6 * n)) (fun _ c => c ≤ if pos ≥ 0 then 2 * n else 6 * n) (getCodepointPos r pos) 0 := by
  unfold getCodepointPos
  by_cases h1 : pos = PTRDIFF_MIN
  · rw [if_pos h1]
    exact ⟨Nat.zero_le _, by decide, fun _ => hU.resolve_left (fun h => h h1)⟩
  rw [if_neg h1]
  by_cases h2 : (pos.natAbs : Int) > (r.last - r.first : Nat)
  · rw [if_pos h2]
    exact Nat.zero_le _
  rw [if_neg h2]
  by_cases hp : pos ≥ 0
  · simp only [if_pos hp]
    refine Wp.bind (Wp.mono ?_ (wp_skipNextN (by omega) _ r.first 0 (Nat.le_refl _) h (by omega)))
    rintro ⟨q, i⟩ c ⟨k1, k2, k3⟩
    dsimp only at *
    split <;> (show c ≤ _; omega)
  · simp only [if_neg hp]
    refine Wp.bind (Wp.mono ?_ (wp_skipPrevN hn (Nat.le_refl _) _ r.last 0 h (Nat.le_refl _) (by omega)))
    rintro ⟨q, i⟩ c ⟨k1, k2, k3⟩
    dsimp only at *
    split <;> exact k3

/-! ### to_composed -/

theorem findComposed_error {ch mark : Char32} {e : Err} (h : findComposed ch mark = .error e) : e = .ub := by
  unfold findComposed at h
  generalize TO_COMPOSED = tbl at h
  unfold findComposedIn at h
  split at h
  · cases h
  · dsimp only at h
    split at h
    · injection h with h; exact h.symm
    · split at h <;> cases h

theorem wp_findComposed (hU : U) {β : Type} {ch mark : Char32} {f : Char32 → Prog β} {Q : β → Nat → Prop} {B c : Nat} (hc : c ≤ B)
    (h : ∀ x, Wp (Ends U B) Q (f x) c) : Wp (Ends U B) Q (fin (findComposed ch mark) >>= f) c := by
  refine Wp.bind ?_
  unfold fin
  cases e : findComposed ch mark with
  | ok x => exact h x
  | error e' =>
    rw [findComposed_error e]
    exact ⟨hc, by decide, fun _ => hU⟩

theorem wp_composeRun (hU : U) {B it0 c0 : Nat} (hB : c0 + 2 * (r.last - it0) + 8 ≤ B) : ∀ (fuel : Nat) (ch mark : Char32) (it c : Nat), r.first ≤ it →
    it0 ≤ it → it ≤ r.last → r.last - it < fuel → c ≤ c0 + 2 * (it - it0) →
    Wp (Ends U B) (fun x c => it0 ≤ x.2.2.2 ∧ x.2.2.2 ≤ x.2.2.1 ∧ x.2.2.1 ≤ r.last ∧ c ≤ c0 + 2 * (x.2.2.1 - it0)) (composeRun r fuel ch mark it) c
  | 0, _, _, _, _, _, _, _, h, _ => by omega
  | fuel + 1, ch, mark, it, c, h1, h2, h3, h4, h5 => by
    unfold composeRun
    refine wp_next h1 h3 (by omega) ⟨h2, Nat.le_refl _, h3, h5⟩ fun m' i c' k1 k2 k3 => ?_
    refine wp_findComposed hU (by omega) fun x => ?_
    split
    · exact ⟨h2, by show it ≤ i; omega, k2, by show c' ≤ c0 + 2 * (i - it0); omega⟩
    · exact wp_composeRun hU hB fuel _ _ i c' (by omega) (by omega) k2 (by omega) (by omega)

theorem wp_toComposedLoop (hU : U) {B : Nat} (hB : 3 * (r.last - r.first) + 8 ≤ B) : ∀ (fuel : Nat) (ch : Char32) (x : Str) (f it t p c : Nat),
    r.first ≤ f → f ≤ t → t ≤ p → p ≤ it → it ≤ r.last → r.last - it < fuel → c ≤ 2 * (it - r.first) + (f - r.first) →
    Wp (Ends U B) (fun _ c => c ≤ B) (toComposedLoop r fuel ch x f it t p) c
  | 0, _, _, _, _, _, _, _, _, _, _, _, _, h, _ => by omega
  | fuel + 1, ch, x, f, it, t, p, c, h1, h2, h3, h4, h5, h6, h7 => by
    unfold toComposedLoop
    refine wp_next (by omega) h5 (by omega) ?_ fun m' i c' k1 k2 k3 => ?_
    · show Wp _ _ (appendBetween r f p x) c
      unfold appendBetween
      rw [if_pos (by omega)]
      refine wp_copyOut _ _ _ _ h1 (by omega) fun y => ?_
      omega
    · dsimp only
      refine wp_findComposed hU (by omega) fun d => ?_
      split
      · exact wp_toComposedLoop hU hB fuel _ _ f i p i c' h1 (by omega) (by omega) (Nat.le_refl _) k2 (by omega) (by omega)
      · unfold appendBetween
        rw [if_pos h2]
        refine Wp.bind (wp_copyOut _ _ _ _ h1 (by omega) fun y => ?_)
        refine Wp.bind (Wp.mono ?_ (wp_composeRun hU (it0 := i) (c0 := c' + (t - f)) (by omega) _ _ _ i _ (by omega) (Nat.le_refl _) k2 (by omega) (by omega)))
        rintro ⟨c1, m1, i1, f1⟩ c'' ⟨l1, l2, l3, l4⟩
        dsimp only at *
        exact wp_toComposedLoop hU hB fuel _ _ f1 i1 f1 f1 c'' (by omega) (Nat.le_refl _) (Nat.le_refl _) l2 l3 (by omega) (by omega)

theorem wp_toComposed (hU : U) (h : r.first ≤ r.last) :
    Wp (Ends U (3 * (r.last - r.first) + 8)) (fun _ c => c ≤ 3 * (r.last - r.first) + 8) (toComposed r) 0 := by
  unfold toComposed
  refine wp_next (Nat.le_refl _) h (by omega) (Nat.zero_le _) fun ch i c k1 k2 k3 => ?_
  dsimp only
  exact wp_toComposedLoop hU (Nat.le_refl _) _ _ _ r.first i r.first i c (Nat.le_refl _) (Nat.le_refl _) (by omega) (Nat.le_refl _) k2 (by omega) (by omega)

end Ystring.Thr
