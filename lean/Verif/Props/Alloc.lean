import Verif.Model.Alloc
import Verif.Props.InOut
import Verif.Props.UnescapeNext
import Verif.Props.Concat
/-
Property theorem C90: the arguments that a call changes, when memory cannot be allocated.
-/
namespace Ystring
open Spec

theorem Mem.bind_ok {σ α β} {m : Mem σ α} {f : α → Mem σ β} {mem k s a s' k'} (h : m mem k s = (.ok a, s', k')) :
    (m >>= f) mem k s = f a mem k' s' := by
  show Mem.bind m f mem k s = _
  unfold Mem.bind; rw [h]

theorem Mem.bind_error {σ α β} {m : Mem σ α} {f : α → Mem σ β} {mem k s e s' k'} (h : m mem k s = (.error e, s', k')) :
    (m >>= f) mem k s = (.error e, s', k') := by
  show Mem.bind m f mem k s = _
  unfold Mem.bind; rw [h]

theorem Mem.get_bind {σ β} {f : σ → Mem σ β} {mem k s} : (Mem.get >>= f) mem k s = f s mem k s := rfl

theorem Mem.set_bind {σ β} {f : Unit → Mem σ β} {mem k s s'} : (Mem.set s' >>= f) mem k s = f () mem k s' := rfl

theorem Mem.request_ok {σ mem k} {s : σ} (h : mem k = true) : Mem.request mem k s = (.ok (), s, k + 1) := by
  unfold Mem.request; rw [if_pos h]

theorem Mem.request_no {σ mem k} {s : σ} (h : mem k = false) : Mem.request mem k s = (.error .badAlloc, s, k + 1) := by
  unfold Mem.request; rw [h]; rfl

theorem Mem.throwY_ok {σ α mem k} {s : σ} (h : mem k = true) : (Mem.throwY : Mem σ α) mem k s = (.error (.lib .ystring), s, k + 1) := by
  unfold Mem.throwY; rw [Mem.bind_ok (Mem.request_ok h)]; rfl

theorem Mem.throwY_no {σ α mem k} {s : σ} (h : mem k = false) : (Mem.throwY : Mem σ α) mem k s = (.error .badAlloc, s, k + 1) := by
  unfold Mem.throwY; rw [Mem.bind_error (Mem.request_no h)]

/-- The outcome of a call that needs memory for an exception only. -/
theorem Mem.lift_cases {σ α} (r : Res α) (mem : Nat → Bool) (k : Nat) (s : σ) :
    (∃ a, r = .ok a ∧ Mem.lift r mem k s = (.ok a, s, k)) ∨
    (∃ e k', r = .error e ∧ Mem.lift r mem k s = (.error (.lib e), s, k')) ∨
    (r = .error .ystring ∧ mem k = false ∧ Mem.lift r mem k s = (.error .badAlloc, s, k + 1)) := by
  cases r with
  | ok a => exact .inl ⟨a, rfl, rfl⟩
  | error e =>
    cases e with
    | ystring =>
      cases h : mem k with
      | true => exact .inr (.inl ⟨_, _, rfl, Mem.throwY_ok h⟩)
      | false => exact .inr (.inr ⟨rfl, rfl, Mem.throwY_no h⟩)
    | outOfRange => exact .inr (.inl ⟨_, _, rfl, rfl⟩)
    | ub => exact .inr (.inl ⟨_, _, rfl, rfl⟩)
    | diverge => exact .inr (.inl ⟨_, _, rfl, rfl⟩)

/-! ### append -/

theorem pushBytes_cases (mem : Nat → Bool) : ∀ (bs : List UInt8) (k : Nat) (s : Str),
    (pushBytes bs mem k s = (.ok (), s ++ bs, k + bs.length)) ∨
    (∃ p b q k', bs = p ++ b :: q ∧ mem k' = false ∧ pushBytes bs mem k s = (.error .badAlloc, s ++ p, k' + 1)) := by
  intro bs
  induction bs with
  | nil => intro k s; left; simp [pushBytes]; rfl
  | cons b bs ih =>
    intro k s
    rw [pushBytes]
    cases h : mem k with
    | true =>
      rw [Mem.bind_ok (Mem.request_ok h), Mem.get_bind, Mem.set_bind]
      rcases ih (k + 1) (s ++ [b]) with h1 | ⟨p, c, q, k', e, h1, h2⟩
      · left; rw [h1]; simp; omega
      · right; exact ⟨b :: p, c, q, k', by rw [e]; rfl, h1, by rw [h2]; simp⟩
    | false =>
      right
      exact ⟨[], b, bs, k, rfl, h, by rw [Mem.bind_error (Mem.request_no h)]; simp⟩

theorem encodeUtf8_none {c : Char32} (h : ¬ encodeUtf8Ret c ≠ 0) : encodeUtf8 c = [] := by
  unfold encodeUtf8Ret at h
  unfold encodeUtf8 encodeDetail
  simp only [ne_eq, Decidable.not_not] at h
  rw [h]; rfl

theorem encodeUtf8Ret_iff (c : Char32) : encodeUtf8Ret c ≠ 0 ↔ c.toNat ≤ 0x10FFFF := by
  constructor
  · intro h
    by_cases hc : c.toNat ≤ 0x10FFFF
    · exact hc
    · have := (C15_append [] c).2 (by omega)
      unfold append at this
      rw [if_pos h] at this; cases this
  · intro h h0
    have := encodeUtf8_none (c := c) (by simp [h0])
    have h2 := (encodeUtf8_seq c h).ne_nil
    exact h2 this

/-- C90, in the cases other than a lack of memory in the middle of a sequence (`C90_false_append`): what `append` does to the
string. If memory cannot be allocated a beginning of the sequence may have been added. -/
theorem C90_append_partial (mem : Nat → Bool) (k : Nat) (s : Str) (chr : Char32) :
    let o := appendMem chr mem k s
    (o.1 = .ok () ∧ chr.toNat ≤ 0x10FFFF ∧ o.2.1 = s ++ rfcEncode chr.toNat) ∨
    (o.1 = .error (.lib .ystring) ∧ 0x10FFFF < chr.toNat ∧ o.2.1 = s) ∨
    (o.1 = .error .badAlloc ∧ (∃ i, mem i = false) ∧
      ((0x10FFFF < chr.toNat ∧ o.2.1 = s) ∨ ∃ p b q, rfcEncode chr.toNat = p ++ b :: q ∧ o.2.1 = s ++ p)) := by
  intro o
  by_cases hc : chr.toNat ≤ 0x10FFFF
  · have he := (encodeUtf8Ret_iff chr).mpr hc
    rcases pushBytes_cases mem (encodeUtf8 chr) k s with h | ⟨p, b, q, k', e, h1, h2⟩
    · left
      have : o = (.ok (), s ++ encodeUtf8 chr, k + (encodeUtf8 chr).length) := by
        show appendMem chr mem k s = _
        unfold appendMem
        rw [Mem.bind_ok h, if_pos he]; rfl
      rw [this, encodeUtf8_rfc chr hc]
      exact ⟨rfl, hc, rfl⟩
    · right; right
      have : o = (.error .badAlloc, s ++ p, k' + 1) := by
        show appendMem chr mem k s = _
        unfold appendMem
        rw [Mem.bind_error h2]
      rw [this]
      exact ⟨rfl, ⟨k', h1⟩, .inr ⟨p, b, q, by rw [← encodeUtf8_rfc chr hc, e], rfl⟩⟩
  · have he := mt (encodeUtf8Ret_iff chr).mp hc
    right
    have hb := encodeUtf8_none he
    have : o = Mem.throwY mem k s := by
      show appendMem chr mem k s = _
      unfold appendMem
      rw [hb]
      have : pushBytes [] mem k s = (.ok (), s, k) := rfl
      rw [Mem.bind_ok this, if_neg he]
    cases h : mem k with
    | true => left; rw [this, Mem.throwY_ok h]; exact ⟨rfl, by omega, rfl⟩
    | false => right; rw [this, Mem.throwY_no h]; exact ⟨rfl, ⟨k, h⟩, .inl ⟨by omega, rfl⟩⟩

/-- C90 is false for `append`: if only the third `push_back` fails, the string ends with an incomplete sequence. -/
theorem C90_false_append : ∃ mem : Nat → Bool, ∃ s : Str, WellFormed s ∧
    (appendMem 0x20AC mem 0 s).1 = .error .badAlloc ∧ (appendMem 0x20AC mem 0 s).2.1 = s ++ [0xE2, 0x82] ∧
    isValidUtf8 (appendMem 0x20AC mem 0 s).2.1 = .ok false :=
  ⟨fun i => i < 2, [0x61], wellFormed_ascii (by decide), by rfl, by rfl, by rfl⟩

/-! ### replace_invalid_utf8, pop -/

/-- `m` computes what `r` says, or memory cannot be allocated; in any case it does not change the argument. -/
def Quiet {σ α} (m : Mem σ α) (r : Res α) : Prop := ∀ (mem : Nat → Bool) (k : Nat) (s : σ), ∃ k',
  (∃ a, r = .ok a ∧ m mem k s = (.ok a, s, k')) ∨ (∃ e, r = .error e ∧ m mem k s = (.error (.lib e), s, k')) ∨
  ((∃ i, mem i = false) ∧ m mem k s = (.error .badAlloc, s, k'))

theorem Quiet.pure {σ α} (a : α) : Quiet (Pure.pure a : Mem σ α) (.ok a) := fun _ k _ => ⟨k, .inl ⟨a, rfl, rfl⟩⟩

theorem Quiet.fail {σ α} (e : Err) : Quiet (Mem.fail (.lib e) : Mem σ α) (.error e) := fun _ k _ => ⟨k, .inr (.inl ⟨e, rfl, rfl⟩)⟩

theorem Quiet.lift {σ α} (r : Res α) : Quiet (Mem.lift r : Mem σ α) r := by
  intro mem k s
  rcases Mem.lift_cases r mem k s with ⟨a, e, h⟩ | ⟨e, k', e', h⟩ | ⟨e, h1, h⟩
  · exact ⟨_, .inl ⟨a, e, h⟩⟩
  · exact ⟨_, .inr (.inl ⟨e, e', h⟩)⟩
  · exact ⟨_, .inr (.inr ⟨⟨k, h1⟩, h⟩)⟩

theorem Quiet.bind {σ α β} {m : Mem σ α} {r : Res α} {f : α → Mem σ β} {g : α → Res β} (h : Quiet m r)
    (hf : ∀ a, Quiet (f a) (g a)) : Quiet (m >>= f) (r >>= g) := by
  intro mem k s
  obtain ⟨k', ⟨a, e1, h2⟩ | ⟨e, e1, h2⟩ | ⟨h1, h2⟩⟩ := h mem k s
  · rw [Mem.bind_ok h2, e1]; exact hf a mem k' s
  · exact ⟨k', .inr (.inl ⟨e, by rw [e1]; rfl, Mem.bind_error h2⟩)⟩
  · exact ⟨k', .inr (.inr ⟨h1, Mem.bind_error h2⟩)⟩

theorem Quiet.request {σ α} {m : Mem σ α} {r : Res α} (h : Quiet m r) : Quiet (Mem.request >>= fun _ => m) r := by
  intro mem k s
  cases hk : mem k with
  | true => rw [Mem.bind_ok (Mem.request_ok hk)]; exact h mem (k + 1) s
  | false => exact ⟨k + 1, .inr (.inr ⟨⟨k, hk⟩, Mem.bind_error (Mem.request_no hk)⟩)⟩

theorem replaceInvalidLoopMem_quiet (repl : Str) : ∀ (fuel : Nat) (it prev result : Str),
    Quiet (replaceInvalidLoopMem repl fuel it prev result) (replaceInvalidLoop repl fuel it prev result) := by
  intro fuel
  induction fuel with
  | zero => intro it prev result; exact Quiet.fail _
  | succ fuel ih =>
    intro it prev result
    rw [replaceInvalidLoop, replaceInvalidLoopMem]
    by_cases h0 : it ≠ []
    · rw [if_pos h0, if_pos h0]
      refine Quiet.bind (Quiet.lift _) fun ⟨ch, it'⟩ => ?_
      by_cases h1 : ch ≠ INVALID_CHAR
      · simp only [if_pos h1]; exact ih _ _ _
      · simp only [if_neg h1]; exact Quiet.request (Quiet.request (ih _ _ _))
    · rw [if_neg h0, if_neg h0]
      exact Quiet.request (Quiet.pure _)

/-- C90: if memory cannot be allocated in `replace_invalid_utf8`, the string is unchanged. -/
theorem C90_replace_invalid (mem : Nat → Bool) (k : Nat) (s : Str) (chr : Char32) :
    let o := replaceInvalidUtf8Mem chr mem k s
    (o.1 = .ok () ∧ .ok o.2.1 = replaceInvalidUtf8InPlace s chr) ∨
    (o.1 = .error .badAlloc ∧ (∃ i, mem i = false) ∧ o.2.1 = s) := by
  intro o
  have hok := (C88_unchanged s 0 chr).2.2.2.2.2
  unfold replaceInvalidUtf8IO at hok
  have ho : o = replaceInvalidUtf8Mem chr mem k s := rfl
  unfold replaceInvalidUtf8Mem at ho
  rw [Mem.get_bind] at ho
  unfold replaceInvalidUtf8InPlace
  obtain ⟨k', ⟨v, e, h⟩ | ⟨e, e', h⟩ | ⟨h1, h⟩⟩ := Quiet.lift (σ := Str) (isValidUtf8 s) mem k s
  · rw [Mem.bind_ok h] at ho
    rw [e] at hok ⊢
    cases v with
    | true => left; rw [ho]; exact ⟨rfl, rfl⟩
    | false =>
      simp only [Bool.not_false, if_true] at ho
      obtain ⟨k'', ⟨a, e, h⟩ | ⟨e, e', h⟩ | ⟨h1, h⟩⟩ := replaceInvalidLoopMem_quiet (encodeUtf8Buf chr 4).1 (s.length + 1) s s [] mem k' s
      · left
        rw [Mem.bind_ok h] at ho
        rw [ho]
        exact ⟨rfl, e.symm⟩
      · exfalso
        unfold replaceInvalidUtf8 at hok
        rw [e'] at hok
        cases hok
      · right
        rw [Mem.bind_error h] at ho
        rw [ho]
        exact ⟨rfl, h1, rfl⟩
  · rw [e'] at hok; cases hok
  · right
    rw [Mem.bind_error h] at ho
    rw [ho]
    exact ⟨rfl, h1, rfl⟩

/-- what a function that takes a code point from a view does when memory may be short: it returns what `r` says and the view is what `r` says,
or the view is unchanged and it throws what `r` says or, if a request for memory has failed, `std::bad_alloc` -/
def Takes (r : Res (Option Char32 × Str)) (mem : Nat → Bool) (s : Str) (o : Except Fail (Option Char32) × Str × Nat) : Prop :=
  (∃ c rest, r = .ok (c, rest) ∧ o.1 = .ok c ∧ o.2.1 = rest) ∨
  (o.2.1 = s ∧ ((∃ e, r = .error e ∧ o.1 = .error (.lib e)) ∨ ((∃ i, mem i = false) ∧ o.1 = .error .badAlloc)))

/-- C90: `pop_utf8_codepoint` and `pop_last_utf8_codepoint` do what they do with unlimited memory; if memory for an exception cannot be allocated,
or if they throw another exception, the view is unchanged. -/
theorem C90_pop (mem : Nat → Bool) (k : Nat) (s : Str) :
    Takes (popUtf8Codepoint s) mem s (popUtf8CodepointMem mem k s) ∧ Takes (popLastUtf8Codepoint s) mem s (popLastUtf8CodepointMem mem k s) := by
  unfold popUtf8CodepointMem popLastUtf8CodepointMem
  rw [Mem.get_bind, Mem.get_bind]
  constructor
  · obtain ⟨k', ⟨v, e', h⟩ | ⟨e'', e', h⟩ | ⟨h1, h⟩⟩ := Quiet.lift (σ := Str) (popUtf8Codepoint s) mem k s
    · rw [Mem.bind_ok h]; exact .inl ⟨v.1, v.2, e', rfl, rfl⟩
    · rw [Mem.bind_error h]; exact .inr ⟨rfl, .inl ⟨_, e', rfl⟩⟩
    · rw [Mem.bind_error h]; exact .inr ⟨rfl, .inr ⟨h1, rfl⟩⟩
  · obtain ⟨k', ⟨v, e', h⟩ | ⟨e'', e', h⟩ | ⟨h1, h⟩⟩ := Quiet.lift (σ := Str) (popLastUtf8Codepoint s) mem k s
    · rw [Mem.bind_ok h]; exact .inl ⟨v.1, v.2, e', rfl, rfl⟩
    · rw [Mem.bind_error h]; exact .inr ⟨rfl, .inl ⟨_, e', rfl⟩⟩
    · rw [Mem.bind_error h]; exact .inr ⟨rfl, .inr ⟨h1, rfl⟩⟩

/-! ### CodepointSet -/

namespace CodepointSet

theorem addRangeMem_cases (mem : Nat → Bool) (k : Nat) (set : CodepointSet) (a b : Char32) :
    (addRangeMem a b mem k set = (.ok (), set.addRange a b, k + 1)) ∨
    (mem k = false ∧ addRangeMem a b mem k set = (.error .badAlloc, set, k + 1)) := by
  unfold addRangeMem
  cases h : mem k with
  | true => left; rw [Mem.bind_ok (Mem.request_ok h)]; rfl
  | false => right; rw [Mem.bind_error (Mem.request_no h)]; exact ⟨rfl, rfl⟩

theorem addCodepointMem_cases (mem : Nat → Bool) (k : Nat) (set : CodepointSet) (c : Char32) :
    ∃ k', (addCodepointMem c mem k set = (.ok (), set.addCodepoint c, k')) ∨
    ((∃ i, mem i = false) ∧ addCodepointMem c mem k set = (.error .badAlloc, set, k')) := by
  unfold addCodepointMem addCodepoint
  rw [Mem.get_bind]
  have key := addRangeMem_cases mem k set c c
  rcases hl : set.ranges.getLast? with _ | r
  · simp only
    rcases key with h | ⟨h1, h⟩
    · exact ⟨_, .inl h⟩
    · exact ⟨_, .inr ⟨⟨k, h1⟩, h⟩⟩
  · simp only
    by_cases hr : r.2 + 1 = c
    · rw [if_pos hr, if_pos hr]; exact ⟨k, .inl rfl⟩
    · rw [if_neg hr, if_neg hr]
      rcases key with h | ⟨h1, h⟩
      · exact ⟨_, .inl h⟩
      · exact ⟨_, .inr ⟨⟨k, h1⟩, h⟩⟩

/-- C90: if memory cannot be allocated in `add_range` or `add_codepoint` the set is unchanged; in `add_codepoints` those
before the one it could not be allocated for have been added. -/
theorem C90_set (mem : Nat → Bool) (k : Nat) (set : CodepointSet) (a b : Char32) (cs : List Char32) :
    (let o := addRangeMem a b mem k set;
      (o.1 = .ok () ∧ o.2.1 = set.addRange a b) ∨ (o.1 = .error .badAlloc ∧ (∃ i, mem i = false) ∧ o.2.1 = set)) ∧
    (let o := addCodepointMem a mem k set;
      (o.1 = .ok () ∧ o.2.1 = set.addCodepoint a) ∨ (o.1 = .error .badAlloc ∧ (∃ i, mem i = false) ∧ o.2.1 = set)) ∧
    (let o := addCodepointsMem cs mem k set;
      (o.1 = .ok () ∧ o.2.1 = set.addCodepoints cs) ∨
      (o.1 = .error .badAlloc ∧ (∃ i, mem i = false) ∧ ∃ ps c qs, cs = ps ++ c :: qs ∧ o.2.1 = set.addCodepoints ps)) := by
  refine ⟨?_, ?_, ?_⟩
  · rcases addRangeMem_cases mem k set a b with h | ⟨h1, h⟩
    · left; simp [h]
    · right; simp [h]; exact ⟨k, h1⟩
  · obtain ⟨k', h | ⟨h1, h⟩⟩ := addCodepointMem_cases mem k set a
    · left; simp [h]
    · right; simp [h]; exact h1
  · induction cs generalizing k set with
    | nil => left; exact ⟨rfl, rfl⟩
    | cons c cs ih =>
      simp only [addCodepointsMem]
      obtain ⟨k', h | ⟨h1, h⟩⟩ := addCodepointMem_cases mem k set c
      · rw [Mem.bind_ok h]
        rcases ih k' (set.addCodepoint c) with ⟨h1, h2⟩ | ⟨h1, h2, ps, d, qs, rfl, h3⟩
        · left; exact ⟨h1, h2⟩
        · right; exact ⟨h1, h2, c :: ps, d, qs, rfl, h3⟩
      · rw [Mem.bind_error h]
        right
        exact ⟨rfl, h1, [], c, cs, rfl, rfl⟩

end CodepointSet

/-! ### unescape_next -/

/-- `m` computes what `f` says of the view. If it throws or memory cannot be allocated, some of the view may have been removed. -/
def Reads {α} (m : Mem NextArgs α) (f : Str → Res (α × Str)) : Prop := ∀ (mem : Nat → Bool) (k : Nat) (s : NextArgs), ∃ k',
  (∃ a rest, f s.str = .ok (a, rest) ∧ m mem k s = (.ok a, ⟨rest, s.didUnescape⟩, k')) ∨
  (∃ e p rest, s.str = p ++ rest ∧ f s.str = .error e ∧ m mem k s = (.error (.lib e), ⟨rest, s.didUnescape⟩, k')) ∨
  (∃ p rest, s.str = p ++ rest ∧ f s.str = .error .ystring ∧ (∃ i, mem i = false) ∧
    m mem k s = (.error .badAlloc, ⟨rest, s.didUnescape⟩, k'))

theorem reads_lift {α} (f : Str → Res (α × Str)) : Reads (do
    let (a, rest) ← Mem.lift (f (← Mem.get).str)
    setStr rest
    pure a) f := by
  intro mem k s
  rw [Mem.get_bind]
  rcases Mem.lift_cases (f s.str) mem k s with ⟨⟨a, rest⟩, e, h⟩ | ⟨e, k', e', h⟩ | ⟨e, h1, h⟩
  · exact ⟨_, .inl ⟨a, rest, e, by rw [Mem.bind_ok h]; rfl⟩⟩
  · exact ⟨_, .inr (.inl ⟨e, [], s.str, rfl, e', by rw [Mem.bind_error h]⟩)⟩
  · exact ⟨_, .inr (.inr ⟨[], s.str, rfl, e, ⟨k, h1⟩, by rw [Mem.bind_error h]⟩)⟩

theorem Reads.map {α β} {m : Mem NextArgs α} {f : Str → Res (α × Str)} (h : Reads m f) (g : α → β) :
    Reads (g <$> m) (fun s => f s >>= fun x => .ok (g x.1, x.2)) := by
  intro mem k s
  show ∃ k', _ ∨ (∃ e p rest, _ ∧ _ ∧ (m >>= fun a => pure (g a)) mem k s = _) ∨ _
  obtain ⟨k', ⟨a, rest, e, h⟩ | ⟨e, p, rest, e1, e2, h⟩ | ⟨p, rest, e1, e2, h1, h⟩⟩ := h mem k s
  · exact ⟨k', .inl ⟨g a, rest, by simp only [e]; rfl, Mem.bind_ok h⟩⟩
  · exact ⟨k', .inr (.inl ⟨e, p, rest, e1, by simp only [e2]; rfl, Mem.bind_error h⟩)⟩
  · exact ⟨k', .inr (.inr ⟨p, rest, e1, by simp only [e2]; rfl, h1, Mem.bind_error h⟩)⟩


theorem extractHexChar_suffix {s : Str} {a b : Nat} {c : Char32} {rest : Str} (h : extractHexChar s a b = .ok (c, rest)) :
    ∃ p, s = p ++ rest := by
  unfold extractHexChar at h
  rcases hx : fromChars 16 (s.take (if b > s.length then s.length else b)) with ⟨length, value⟩
  simp only [hx] at h
  by_cases hl : length < a
  · rw [if_pos hl] at h; cases h
  · rw [if_neg hl] at h
    cases value with
    | none => cases h
    | some v => cases h; exact ⟨s.take length, (List.take_append_drop _ _).symm⟩

theorem reads_utf16 : Reads extractUtf16CharMem extractUtf16Char := by
  intro mem k s
  unfold extractUtf16CharMem extractUtf16Char
  obtain ⟨k1, ⟨ch, rest, e, h⟩ | ⟨e, p, rest, e1, e2, h⟩ | ⟨p, rest, e1, e2, h1, h⟩⟩ :=
    reads_lift (fun s => extractHexChar s 4 4) mem k s
  · have h' : extractHexCharMem 4 4 mem k s = _ := h
    rw [Mem.bind_ok h']
    simp only at e
    rw [e]
    obtain ⟨p, hp⟩ := extractHexChar_suffix e
    simp only [bind_ok']
    by_cases hc : ch < 0xD800 ∨ 0xDBFF < ch
    · rw [if_pos hc, if_pos hc]
      exact ⟨k1, .inl ⟨ch, rest, rfl, rfl⟩⟩
    · rw [if_neg hc, if_neg hc, Mem.get_bind]
      have lift_step : ∀ {α : Type} (r : Res α) (f : α → Mem NextArgs Char32) (g : α → Res (Char32 × Str)) (k : Nat),
          (∀ a k, ∃ k', (∃ a' rest', g a = .ok (a', rest') ∧ f a mem k ⟨rest, s.didUnescape⟩ = (.ok a', ⟨rest', s.didUnescape⟩, k')) ∨
            (∃ e p r', s.str = p ++ r' ∧ g a = .error e ∧ f a mem k ⟨rest, s.didUnescape⟩ = (.error (.lib e), ⟨r', s.didUnescape⟩, k')) ∨
            (∃ p r', s.str = p ++ r' ∧ g a = .error .ystring ∧ (∃ i, mem i = false) ∧
              f a mem k ⟨rest, s.didUnescape⟩ = (.error .badAlloc, ⟨r', s.didUnescape⟩, k'))) →
          ∃ k', (∃ a' rest', (r >>= g) = .ok (a', rest') ∧ (Mem.lift r >>= f) mem k ⟨rest, s.didUnescape⟩ = (.ok a', ⟨rest', s.didUnescape⟩, k')) ∨
            (∃ e p r', s.str = p ++ r' ∧ (r >>= g) = .error e ∧ (Mem.lift r >>= f) mem k ⟨rest, s.didUnescape⟩ = (.error (.lib e), ⟨r', s.didUnescape⟩, k')) ∨
            (∃ p r', s.str = p ++ r' ∧ (r >>= g) = .error .ystring ∧ (∃ i, mem i = false) ∧
              (Mem.lift r >>= f) mem k ⟨rest, s.didUnescape⟩ = (.error .badAlloc, ⟨r', s.didUnescape⟩, k')) := by
        intro α r f g k hk
        rcases Mem.lift_cases r mem k (⟨rest, s.didUnescape⟩ : NextArgs) with ⟨a, e, h⟩ | ⟨e, k', e', h⟩ | ⟨e, h1, h⟩
        · rw [Mem.bind_ok h, e]; exact hk a k
        · exact ⟨_, .inr (.inl ⟨e, p, rest, hp, by rw [e']; rfl, Mem.bind_error h⟩)⟩
        · exact ⟨_, .inr (.inr ⟨p, rest, hp, by rw [e]; rfl, ⟨k, h1⟩, Mem.bind_error h⟩)⟩
      refine lift_step _ _ _ _ fun str2 k => ?_
      by_cases h6 : str2.length < 6
      · rw [if_pos h6, if_pos h6]; exact ⟨k, .inl ⟨ch, rest, rfl, rfl⟩⟩
      · rw [if_neg h6, if_neg h6]
        refine lift_step _ _ _ _ fun c0 k => ?_
        refine lift_step _ _ _ _ fun c1 k => ?_
        by_cases h7 : c0 ≠ 0x5C ∨ c1 ≠ 0x75
        · rw [if_pos h7, if_pos h7]; exact ⟨k, .inl ⟨ch, rest, rfl, rfl⟩⟩
        · rw [if_neg h7, if_neg h7]
          refine lift_step _ _ _ _ fun ⟨ch2, _⟩ k => ?_
          simp only
          by_cases h8 : ch2 < 0xDC00 ∨ 0xDFFF < ch2
          · rw [if_pos h8, if_pos h8]; exact ⟨k, .inl ⟨ch, rest, rfl, rfl⟩⟩
          · rw [if_neg h8, if_neg h8]; exact ⟨k, .inl ⟨_, _, rfl, rfl⟩⟩
  · have h' : extractHexCharMem 4 4 mem k s = _ := h
    simp only at e2
    exact ⟨k1, .inr (.inl ⟨e, p, rest, e1, by rw [e2]; rfl, Mem.bind_error h'⟩)⟩
  · have h' : extractHexCharMem 4 4 mem k s = _ := h
    simp only at e2
    exact ⟨k1, .inr (.inr ⟨p, rest, e1, by rw [e2]; rfl, h1, Mem.bind_error h'⟩)⟩


theorem unescapeSwitchMem_cases (type : UInt8) (rest : Str) (mem : Nat → Bool) (k : Nat) (did : Option Bool) : ∃ k',
    (∃ a r, unescapeSwitch type rest = .ok (a, r) ∧ unescapeSwitchMem type rest mem k ⟨rest, did⟩ = (.ok a, ⟨r, did⟩, k')) ∨
    (∃ e p r, type :: rest = p ++ r ∧ unescapeSwitch type rest = .error e ∧
      unescapeSwitchMem type rest mem k ⟨rest, did⟩ = (.error (.lib e), ⟨r, did⟩, k')) ∨
    (∃ p r, type :: rest = p ++ r ∧ unescapeSwitch type rest = .error .ystring ∧ (∃ i, mem i = false) ∧
      unescapeSwitchMem type rest mem k ⟨rest, did⟩ = (.error .badAlloc, ⟨r, did⟩, k')) := by
  unfold unescapeSwitch unescapeSwitchMem
  by_cases h1 : type = 0x61
  · rw [if_pos h1, if_pos h1]; exact ⟨k, .inl ⟨_, rest, rfl, rfl⟩⟩
  rw [if_neg h1, if_neg h1]
  by_cases h2 : type = 0x62
  · rw [if_pos h2, if_pos h2]; exact ⟨k, .inl ⟨_, rest, rfl, rfl⟩⟩
  rw [if_neg h2, if_neg h2]
  by_cases h3 : type = 0x66
  · rw [if_pos h3, if_pos h3]; exact ⟨k, .inl ⟨_, rest, rfl, rfl⟩⟩
  rw [if_neg h3, if_neg h3]
  by_cases h4 : type = 0x6E
  · rw [if_pos h4, if_pos h4]; exact ⟨k, .inl ⟨_, rest, rfl, rfl⟩⟩
  rw [if_neg h4, if_neg h4]
  by_cases h5 : type = 0x72
  · rw [if_pos h5, if_pos h5]; exact ⟨k, .inl ⟨_, rest, rfl, rfl⟩⟩
  rw [if_neg h5, if_neg h5]
  by_cases h6 : type = 0x74
  · rw [if_pos h6, if_pos h6]; exact ⟨k, .inl ⟨_, rest, rfl, rfl⟩⟩
  rw [if_neg h6, if_neg h6]
  by_cases h7 : type = 0x76
  · rw [if_pos h7, if_pos h7]; exact ⟨k, .inl ⟨_, rest, rfl, rfl⟩⟩
  rw [if_neg h7, if_neg h7]
  have wide : ∀ {m : Mem NextArgs (Option Char32)} {f : Str → Res (Option Char32 × Str)}, Reads m f → ∃ k',
      (∃ a r, f rest = .ok (a, r) ∧ m mem k ⟨rest, did⟩ = (.ok a, ⟨r, did⟩, k')) ∨
      (∃ e p r, type :: rest = p ++ r ∧ f rest = .error e ∧ m mem k ⟨rest, did⟩ = (.error (.lib e), ⟨r, did⟩, k')) ∨
      (∃ p r, type :: rest = p ++ r ∧ f rest = .error .ystring ∧ (∃ i, mem i = false) ∧
        m mem k ⟨rest, did⟩ = (.error .badAlloc, ⟨r, did⟩, k')) := by
    intro m f h
    obtain ⟨k', h | ⟨e, p, r, e1, e2, h⟩ | ⟨p, r, e1, e2, h1, h⟩⟩ := h mem k ⟨rest, did⟩
    · exact ⟨k', .inl h⟩
    · exact ⟨k', .inr (.inl ⟨e, type :: p, r, congrArg (type :: ·) e1, e2, h⟩)⟩
    · exact ⟨k', .inr (.inr ⟨type :: p, r, congrArg (type :: ·) e1, e2, h1, h⟩)⟩
  by_cases h8 : type = 0x78 ∨ type = 0x58
  · rw [if_pos h8, if_pos h8]; exact wide (Reads.map (reads_lift fun s => extractHexChar s 1 8) some)
  rw [if_neg h8, if_neg h8]
  by_cases h9 : type = 0x55
  · rw [if_pos h9, if_pos h9]; exact wide (Reads.map (reads_lift fun s => extractHexChar s 8 8) some)
  rw [if_neg h9, if_neg h9]
  by_cases h10 : type = 0x75
  · rw [if_pos h10, if_pos h10]; exact wide (Reads.map reads_utf16 some)
  rw [if_neg h10, if_neg h10]
  have hset : setStr (type :: rest) mem k ⟨rest, did⟩ = (.ok (), ⟨type :: rest, did⟩, k) := rfl
  rw [Mem.bind_ok hset]
  by_cases h11 : isOctDigit type = true
  · rw [if_pos h11, if_pos h11]; exact Reads.map (reads_lift extractOctChar) some mem k ⟨type :: rest, did⟩
  · rw [if_neg h11, if_neg h11]; exact reads_lift popUtf8Codepoint mem k ⟨type :: rest, did⟩

/-- C90, except that the view is not restored (`C90_false_unescape_next`): `unescape_next` does what it does with unlimited memory, or it
would throw and cannot allocate the memory for that; then the view is some end of the one that was passed. -/
theorem C90_unescape_next_partial (mem : Nat → Bool) (k : Nat) (s : Str) (did : Option Bool) :
    let o := unescapeNextMem mem k ⟨s, did⟩
    (o.1 = (unescapeNext s).result.mapError .lib ∧ o.2.1.str = (unescapeNext s).str ∧
      o.2.1.didUnescape = (unescapeNext s).didUnescape.or did) ∨
    (o.1 = .error .badAlloc ∧ (∃ i, mem i = false) ∧ (unescapeNext s).result = .error .ystring ∧ ∃ p, s = p ++ o.2.1.str) := by
  intro o
  have hprog := C60_progress s
  have hskip := C60_suffix s
  have ho : o = unescapeNextMem mem k ⟨s, did⟩ := rfl
  unfold unescapeNextMem at ho
  rw [Mem.get_bind] at ho
  have hsuf : ∃ p, s = p ++ skipEscapedNewlines s := by
    clear hprog hskip ho o
    induction s using skipEscapedNewlines.induct with
    | case1 t ih => obtain ⟨p, hp⟩ := ih; exact ⟨0x5C :: 0x0A :: p, by rw [skipEscapedNewlines]; simp [← hp]⟩
    | case2 s h => refine ⟨[], ?_⟩; rw [skipEscapedNewlines]; rfl; exact h
  unfold unescapeNext at hprog ⊢
  generalize skipEscapedNewlines s = str at ho hsuf hprog ⊢
  have hset : ∀ x (k : Nat) y d, setStr x mem k ⟨y, d⟩ = (.ok (), ⟨x, d⟩, k) := fun _ _ _ _ => rfl
  have hdid : ∀ x (k : Nat) y d, setDid x mem k ⟨y, d⟩ = (.ok (), ⟨y, some x⟩, k) := fun _ _ _ _ => rfl
  rw [Mem.bind_ok (hset _ _ _ _)] at ho
  obtain ⟨p0, rfl⟩ := hsuf
  cases str with
  | nil =>
    simp only at ho
    rw [Mem.bind_ok (hdid _ _ _ _)] at ho
    left; rw [ho]; exact ⟨rfl, rfl, rfl⟩
  | cons b t =>
    simp only at ho hprog ⊢
    by_cases hb : b ≠ 0x5C
    · rw [if_pos hb, Mem.bind_ok (hdid _ _ _ _)] at ho
      rw [if_pos hb] at hprog ⊢
      obtain ⟨k', ⟨a, r, e, h⟩ | ⟨e, p, r, e1, e2, h⟩ | ⟨p, r, e1, e2, h1, h⟩⟩ := reads_lift popUtf8Codepoint mem k ⟨b :: t, some false⟩
      · have h' : popNextMem mem k ⟨b :: t, some false⟩ = _ := h
        rw [h'] at ho
        simp only at e
        rw [e] at hprog ⊢
        left; rw [ho]; exact ⟨rfl, rfl, rfl⟩
      · have h' : popNextMem mem k ⟨b :: t, some false⟩ = _ := h
        have h'' : popNextMem mem k ⟨b :: t, some false⟩ = (.error (.lib e), ⟨b :: t, some false⟩, k') := by
          unfold popNextMem at h' ⊢
          rw [Mem.get_bind] at h' ⊢
          rcases Mem.lift_cases (popUtf8Codepoint (b :: t)) mem k (⟨b :: t, some false⟩ : NextArgs) with ⟨a, e3, h4⟩ | ⟨e, k', e3, h4⟩ | ⟨e3, h5, h4⟩
          · simp only at e2; rw [e2] at e3; cases e3
          · rw [Mem.bind_error h4] at h' ⊢; cases h'; rfl
          · rw [Mem.bind_error h4] at h'; cases h'
        rw [h''] at ho
        simp only at e2
        rw [e2] at hprog ⊢
        left; rw [ho]; exact ⟨rfl, rfl, rfl⟩
      · have h' : popNextMem mem k ⟨b :: t, some false⟩ = _ := h
        rw [h'] at ho
        simp only at e1 e2
        rw [e2] at hprog ⊢
        right; rw [ho]
        exact ⟨rfl, h1, rfl, p0 ++ p, by rw [List.append_assoc, ← e1]⟩
    · rw [if_neg hb] at ho
      rw [if_neg hb] at hprog ⊢
      cases t with
      | nil =>
        simp only at ho
        cases hk : mem k with
        | true => rw [Mem.throwY_ok hk] at ho; left; rw [ho]; exact ⟨rfl, rfl, rfl⟩
        | false => rw [Mem.throwY_no hk] at ho; right; rw [ho]; exact ⟨rfl, ⟨k, hk⟩, rfl, p0, rfl⟩
      | cons type rest =>
        simp only at ho hprog ⊢
        rw [Mem.bind_ok (hset _ _ _ _), Mem.bind_ok (hdid _ _ _ _)] at ho
        unfold Mem.tryCatch at ho
        obtain ⟨k', ⟨a, r, e, h⟩ | ⟨e, p, r, e1, e2, h⟩ | ⟨p, r, e1, e2, h1, h⟩⟩ := unescapeSwitchMem_cases type rest mem k (some true)
        · rw [h] at ho
          rw [e] at hprog ⊢
          left; rw [ho]; exact ⟨rfl, rfl, rfl⟩
        · rw [e2] at hprog ⊢
          have he : e = .ystring := by
            rcases hprog with h | h | ⟨c, h, -⟩ <;> simp only at h <;> cases h; rfl
          subst he
          rw [h] at ho
          left; rw [ho]; exact ⟨rfl, rfl, rfl⟩
        · rw [h] at ho
          rw [e2] at hprog ⊢
          right; rw [ho]
          exact ⟨rfl, h1, rfl, p0 ++ b :: p, by rw [List.append_assoc, List.cons_append, ← e1]⟩

/-- C90 is false for `unescape_next`: if memory for the exception cannot be allocated, the view is not restored. Its escape sequence has
been removed in part. -/
theorem C90_false_unescape_next :
    unescapeNextMem (fun _ => true) 0 ⟨[0x5C, 0x78, 0x7A], none⟩ =
      (.error (.lib .ystring), ⟨[0x5C, 0x78, 0x7A], some true⟩, 1) ∧
    unescapeNextMem (fun _ => false) 0 ⟨[0x5C, 0x78, 0x7A], none⟩ = (.error .badAlloc, ⟨[0x7A], some true⟩, 1) := ⟨rfl, rfl⟩

/-- With unlimited memory these are the functions of the other model files. -/
theorem C90_unlimited (k : Nat) (s : Str) (chr : Char32) (did : Option Bool) :
    ((appendMem chr (fun _ => true) k s).1 = (appendIO s chr).result.mapError .lib ∧
      (appendMem chr (fun _ => true) k s).2.1 = (appendIO s chr).after) ∧
    ((replaceInvalidUtf8Mem chr (fun _ => true) k s).1 = .ok () ∧
      .ok (replaceInvalidUtf8Mem chr (fun _ => true) k s).2.1 = replaceInvalidUtf8InPlace s chr) ∧
    ((unescapeNextMem (fun _ => true) k ⟨s, did⟩).1 = (unescapeNext s).result.mapError .lib ∧
      (unescapeNextMem (fun _ => true) k ⟨s, did⟩).2.1.str = (unescapeNext s).str) := by
  refine ⟨?_, ?_, ?_⟩
  · unfold appendIO
    have h := C90_append_partial (fun _ => true) k s chr
    simp only at h
    rcases h with ⟨h1, h2, h3⟩ | ⟨h1, h2, h3⟩ | ⟨-, ⟨i, h⟩, -⟩
    · rw [h1, h3]; simp only [if_pos ((encodeUtf8Ret_iff chr).mpr h2), encodeUtf8_rfc chr h2]; exact ⟨rfl, trivial⟩
    · have := mt (encodeUtf8Ret_iff chr).mp (by omega)
      rw [h1, h3]; simp only [if_neg this, encodeUtf8_none this, List.append_nil]; exact ⟨rfl, trivial⟩
    · cases h
  · rcases C90_replace_invalid (fun _ => true) k s chr with h | ⟨-, ⟨i, h⟩, -⟩
    · exact h
    · cases h
  · rcases C90_unescape_next_partial (fun _ => true) k s did with h | ⟨-, ⟨i, h⟩, -⟩
    · exact ⟨h.1, h.2.1⟩
    · cases h

end Ystring
