import Verif.Proofs.ThreadsStop
import Verif.Props.Threads
import Verif.Props.Unescape
/-
C112: what is in a buffer while `unescape` or `encode_utf8` is under way: if the process is stopped at any moment (or the call is left with an
exception), the buffer consists of a first part of the result followed by the bytes that were there before.
-/
namespace Ystring
open Spec

variable {ι : Type} [DecidableEq ι]

theorem text_agree (r : Ptr.Range) (c : Call) (hc : c.buffers = [r]) {m m' : Ptr.Mem}
    (h : ∀ a, InSome c.args a ∨ InSome c.buffers a → m a = m' a) : text m r = text m' r :=
  Ptr.bytes_agree fun a h1 h2 => h a (.inr ⟨r, by rw [hc]; simp, h1, h2⟩)

theorem reads_length {s o t : Str} (h : Reads Escape s o t) : o.length + t.length ≤ s.length := by
  induction h with
  | stop => simp
  | plain _ _ ih => simp; omega
  | escape he _ ih =>
    have := (escape_length he).1
    simp; omega

theorem reads_suffix {s o t : Str} (h : Reads Escape s o t) : s.drop (s.length - t.length) = t := by
  have : ∃ p, s = p ++ t := by
    induction h with
    | stop => exact ⟨[], rfl⟩
    | @plain b _ _ _ _ _ ih => obtain ⟨p, rfl⟩ := ih; exact ⟨b :: p, rfl⟩
    | @escape e _ _ _ _ _ _ ih => obtain ⟨p, rfl⟩ := ih; exact ⟨e ++ p, by simp⟩
  obtain ⟨p, rfl⟩ := this
  rw [List.length_append, Nat.add_sub_cancel, List.drop_left]

/-- **C112** The buffer of `unescape` at any moment, under any schedule of calls that do not use it. `o` is the text of the buffer with its
escape sequences replaced, up to the end (`t = []`) or to a place `t` at which it throws (C58). The buffer holds a first part of `o`, and
behind it the bytes that were there before; what has not been read, in particular `t`, is still there. -/
theorem C112_unescape (call : ι → Call) (hi : Independent call) (m : Ptr.Mem) (i : ι) (r : Ptr.Range) (hr : r.first ≤ r.last)
    (hc : call i = .unescape r) (hf : Fits (text m r)) (o t : Str) (ho : Reads Escape (text m r) o t) (ht : t = [] ∨ Malformed t)
    (schedule : List ι) :
    let s := (begin call m).after schedule
    (∃ k, k ≤ o.length ∧ text s.mem r = o.take k ++ (text m r).drop k) ∧ t <:+ text s.mem r := by
  intro s
  have hw := fun i => Thr.within_call (call i)
  have hlen : (text m r).length = r.last - r.first := Ptr.bytes_length _ _ _
  have hl := hf.lt12
  rw [hlen] at hl
  have key : ∃ k, k ≤ o.length ∧ text s.mem r = o.take k ++ (text m r).drop k := by
    refine Thr.always_after (R := fun i => InSome (call i).args) (W := fun i => InSome (call i).buffers) hi i
      (P := fun m' => ∃ k, k ≤ o.length ∧ text m' r = o.take k ++ (text m r).drop k) ?_ schedule (s := begin call m) hw ?_
    · rintro m1 m2 h ⟨k, k1, k2⟩
      exact ⟨k, k1, by rw [← text_agree r (call i) (by rw [hc]; rfl) h]; exact k2⟩
    · show Thr.Always _ (call i).prog m
      rw [hc]
      have := (Thr.always_unescapeLoop (b := r.first) (e := r.last) (o := o) hr hl ht ho m [] [] [] (r.last - r.first + 1) (by simp)
        (by simp; omega) rfl rfl (by simp)).1
      refine Thr.Always.bind this fun n m' h => ?_
      exact Thr.always_end this h
  refine ⟨key, ?_⟩
  obtain ⟨k, k1, k2⟩ := key
  have h1 := reads_length ho
  rw [k2, ← reads_suffix ho]
  refine List.IsSuffix.trans ?_ (List.suffix_append _ _)
  rw [show (text m r).length - t.length = k + ((text m r).length - t.length - k) by omega, ← List.drop_drop]
  exact List.drop_suffix _ _

/-- **C112** … and when the call has come to its end: it has returned the length of `o`, and the buffer holds `o` and behind it what was there
before, or it has thrown. -/
theorem C112_end (call : ι → Call) (hi : Independent call) (m : Ptr.Mem) (i : ι) (r : Ptr.Range) (hr : r.first ≤ r.last)
    (hc : call i = .unescape r) (hf : Fits (text m r)) (o t : Str) (ho : Reads Escape (text m r) o t) (ht : t = [] ∨ Malformed t)
    (schedule : List ι) (x : Res Value) (hx : ((begin call m).after schedule).left i = .done x) :
    (t = [] ∧ x = .ok (.num o.length) ∧ text ((begin call m).after schedule).mem r = o ++ (text m r).drop o.length) ∨
    (Malformed t ∧ x = .error .ystring) := by
  have hw := fun i => Thr.within_call (call i)
  have hlen : (text m r).length = r.last - r.first := Ptr.bytes_length _ _ _
  have hl := hf.lt12
  have hl' := hl
  rw [hlen] at hl
  have inv : Thr.Inv (fun i => InSome (call i).args) (fun i => InSome (call i).buffers) (begin call m) ((begin call m).after schedule) :=
    Thr.Inv.after hi schedule (Thr.Inv.start hw)
  have h1 := inv.result i
  have h2 := inv.mem i
  rw [hx] at h1 h2
  have hp : (call i).Proper := by rw [hc]; intro r' h; simp [Call.args, Call.buffers] at h; subst h; exact hr
  have h3 := (Thr.outcome_call (call i) hp m).1
  have hx' : x = (Ystring.unescapeBuf (text m r)).map fun x => .num x.2 := by
    refine (h1.trans h3).trans ?_
    rw [hc]; rfl
  rcases ht with rfl | ht
  · left
    obtain ⟨junk, hb, _⟩ := unescapeBuf_ok ho hl'
    refine ⟨rfl, by rw [hx', hb]; rfl, ?_⟩
    have := (Thr.always_unescapeLoop (b := r.first) (e := r.last) (o := o) hr hl (.inl rfl) ho m [] [] [] (r.last - r.first + 1) (by simp)
      (by simp; omega) rfl rfl (by simp)).2 rfl
    have e1 : (Thr.alone' (call i) m).2 = (alone (Thr.unescapeLoop r (r.last - r.first + 1) 0 0) m).2 := by
      unfold Thr.alone'
      rw [hc]
      simp only [Call.prog, Thr.alone_map, Thr.unescape]
    rw [show o ++ (text m r).drop o.length = _ from this.symm]
    refine (Ptr.bytes_agree (m := ((begin call m).after schedule).mem) (m' := (Thr.alone' (call i) m).2) fun a a1 a2 => ?_).trans ?_
    · exact h2 a (.inr ⟨r, by rw [hc]; simp [Call.buffers], a1, a2⟩)
    · rw [e1]; rfl
  · right
    exact ⟨ht, by rw [hx', unescapeBuf_bad ho ht hl']; rfl⟩

/-- **C112** The buffer of `encode_utf8` at any moment: a first part of the encoded code point, and behind it the bytes that were there
before. -/
theorem C112_encode (call : ι → Call) (hi : Independent call) (m : Ptr.Mem) (i : ι) (r : Ptr.Range) (hr : r.first ≤ r.last) (c : Char32)
    (hc : call i = .encodeUtf8 r c) (schedule : List ι) :
    ∃ k, text ((begin call m).after schedule).mem r = (encodeUtf8Buf c (r.last - r.first)).1.take k ++ (text m r).drop k := by
  have hw := fun i => Thr.within_call (call i)
  refine Thr.always_after (R := fun i => InSome (call i).args) (W := fun i => InSome (call i).buffers) hi i
    (P := fun m' => ∃ k, text m' r = (encodeUtf8Buf c (r.last - r.first)).1.take k ++ (text m r).drop k) ?_ schedule (s := begin call m) hw ?_
  · rintro m1 m2 h ⟨k, k2⟩
    exact ⟨k, by rw [← text_agree r (call i) (by rw [hc]; rfl) h]; exact k2⟩
  · show Thr.Always _ (call i).prog m
    rw [hc]
    obtain ⟨r1, r2⟩ := r
    have := Thr.always_encodeUtf8Buf r1 r2 hr c m
    refine Thr.Always.bind this fun n m' h => ?_
    exact Thr.always_end this h

/-- The hypotheses of `C112_unescape` are met: `\u0041b`. -/
example : Reads Escape (text mem111 ⟨10, 17⟩) [0x41, 0x62] [] ∧ Fits (text mem111 ⟨10, 17⟩) := by
  refine ⟨?_, by unfold Fits; decide⟩
  exact .escape (e := [0x5C, 0x75, 0x30, 0x30, 0x34, 0x31]) (out := [0x41])
    (.short (ds := [0x30, 0x30, 0x34, 0x31]) rfl (by decide) (by decide)) (.plain (by decide) .stop)

/-- … and a string that throws behind its first sequence, in the middle of a buffer: `\nab\xg`. -/
example : Reads Escape [0x5C, 0x6E, 0x61, 0x62, 0x5C, 0x78, 0x67] [0x0A, 0x61, 0x62] [0x5C, 0x78, 0x67] ∧ Malformed [0x5C, 0x78, 0x67] := by
  refine ⟨.escape (e := [0x5C, 0x6E]) (out := [0x0A]) (.letter (by decide)) (.plain (by decide) (.plain (by decide) .stop)), .bad ?_⟩
  exact .hex (l := 0x78) (ds := []) (t := [0x67]) (.inl rfl) (by simp) (by simp) (by
    intro b t e; injection e with e _; subst e; decide)

/-- The buffer does pass through such states: `\u0041b`, before and after `A` has been written, and at the end -/
example : [11, 12, 15].map (fun n => text ((begin (fun _ : Unit => .unescape ⟨10, 17⟩) mem111).after (List.replicate n ())).mem ⟨10, 17⟩) =
    [[0x5C, 0x75, 0x30, 0x30, 0x34, 0x31, 0x62], [0x41, 0x75, 0x30, 0x30, 0x34, 0x31, 0x62], [0x41, 0x62, 0x30, 0x30, 0x34, 0x31, 0x62]] := by
  decide +kernel

end Ystring
