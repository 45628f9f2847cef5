/-
Helper lemmas on printing.
-/
import Verif.Spec.Printing
import Verif.Proofs.Client

namespace Mh2c

open Rfc Mh2c.Stream

/-- Output appended to a stream. -/
def Stream.add (s p : Stream) : Stream := ⟨s.out ++ p.out, s.hex || p.hex⟩

/-- Nothing written yet. -/
def Stream.fresh : Stream := ⟨[], false⟩

/-- Printing is appending what is printed on a fresh stream. -/
def Uniform (F : Stream → Res Stream) : Prop :=
  ∀ s : Stream, F s = F .fresh >>= fun p => .ok (s.add p)

theorem add_assoc (s p q : Stream) : (s.add p).add q = s.add (p.add q) := by
  simp [Stream.add, Bool.or_assoc]

theorem add_fresh (s : Stream) : s.add .fresh = s := by simp [Stream.add, Stream.fresh]

theorem fresh_add (s : Stream) : Stream.fresh.add s = s := by simp [Stream.add, Stream.fresh]

theorem text_add (t : Bytes) (s p : Stream) : (s.add p).text t = s.add (p.text t) := by
  simp [Stream.add, Stream.text]

theorem hexByte_add (b : UInt8) (s p : Stream) : (s.add p).hexByte b = s.add (p.hexByte b) := by
  simp [Stream.add, Stream.hexByte]

theorem hexBytes_add (e : Bytes) (n : Nat) (bs : Bytes) (s p : Stream) :
    hexBytes e n bs (s.add p) = s.add (hexBytes e n bs p) := by
  induction bs generalizing n p with
  | nil => rfl
  | cons b bs ih =>
      unfold hexBytes
      rw [hexByte_add, text_add, ih]

theorem start_add (t : Bytes) (fh : FrameHeader) (s p : Stream) :
    dumpStart t fh (s.add p) = s.add (dumpStart t fh p) := by
  unfold dumpStart FrameHeader.dump
  rw [text_add, text_add, text_add]

/-- Printing on an extended stream. -/
abbrev Adds (F : Stream → Res Stream) : Prop :=
  ∀ s p : Stream, F (s.add p) = F p >>= fun q => .ok (s.add q)

theorem Adds.uniform {F : Stream → Res Stream} (h : Adds F) : Uniform F := by
  intro s
  have := h s .fresh
  rwa [add_fresh] at this

theorem adds_entry (e : HeaderEntry) : Adds (dumpEntry e) := by
  intro s p
  unfold dumpEntry
  split
  · cases e.getMaxSize <;>
      simp only [text_add, Res.ok_bind, Res.pure_eq, Res.throw_bind, Res.ub_bind, Res.diverge_bind]
  · cases e.getHeader <;>
      simp only [text_add, Res.ok_bind, Res.pure_eq, Res.throw_bind, Res.ub_bind, Res.diverge_bind]

theorem adds_block (es : HeaderBlock) : Adds (dumpBlock es) := by
  induction es with
  | nil => intro s p; rfl
  | cons e es ih =>
      intro s p
      unfold dumpBlock
      rw [adds_entry]
      cases dumpEntry e p <;> simp [ih s]

theorem padding_add (flags : UInt8) (pad : Bytes) (s p : Stream) :
    dumpPadding flags pad (s.add p) = s.add (dumpPadding flags pad p) := by
  unfold dumpPadding
  split <;> simp only [text_add, hexBytes_add]

theorem adds_errorCode (c : UInt32) : Adds (dumpErrorCode c) := by
  intro s p
  unfold dumpErrorCode
  split
  · cases mapAt errorCodesStrMap c.toNat <;>
      simp only [text_add, Res.ok_bind, Res.pure_eq, Res.throw_bind, Res.ub_bind, Res.diverge_bind]
  · cases mapAt errorCodesStrMap 14 <;>
      simp only [text_add, Res.ok_bind, Res.pure_eq, Res.throw_bind, Res.ub_bind, Res.diverge_bind]

theorem adds_data [Platform] (f : DataFrame) : Adds f.dump := by
  intro s p
  unfold DataFrame.dump
  cases f.parts with
  | ok a =>
      obtain ⟨pad, data, padding⟩ := a
      simp only [Res.ok_bind, Res.pure_eq, start_add, text_add, hexBytes_add]
  | throw e => simp only [Res.throw_bind]
  | ub k => simp only [Res.ub_bind]
  | diverge => simp only [Res.diverge_bind]

theorem adds_headers (f : HeadersFrame) : Adds f.dump := by
  intro s p
  unfold HeadersFrame.dump
  simp only [start_add, text_add]
  rw [adds_block]
  generalize dumpBlock _ _ = r
  cases r <;>
    simp only [padding_add, Res.ok_bind, Res.pure_eq, Res.throw_bind, Res.ub_bind, Res.diverge_bind]

theorem adds_pushPromise (f : PushPromiseFrame) : Adds f.dump := by
  intro s p
  unfold PushPromiseFrame.dump
  simp only [start_add, text_add]
  rw [adds_block]
  generalize dumpBlock _ _ = r
  cases r <;>
    simp only [padding_add, Res.ok_bind, Res.pure_eq, Res.throw_bind, Res.ub_bind, Res.diverge_bind]

theorem adds_continuation (f : ContinuationFrame) : Adds f.dump := by
  intro s p
  unfold ContinuationFrame.dump
  simp only [start_add, text_add]
  rw [adds_block]

theorem adds_goaway (f : GoawayFrame) : Adds f.dump := by
  intro s p
  unfold GoawayFrame.dump
  simp only [start_add, text_add]
  rw [adds_errorCode]
  generalize dumpErrorCode _ _ = r
  cases r with
  | ok q =>
      simp only [Res.ok_bind, text_add]
      split
      · simp only [Res.ok_bind, Res.pure_eq]
      · cases cString f.payload.debugData <;>
          simp only [Res.ok_bind, Res.pure_eq, Res.throw_bind, Res.ub_bind, Res.diverge_bind]
  | throw e => simp only [Res.throw_bind]
  | ub k => simp only [Res.ub_bind]
  | diverge => simp only [Res.diverge_bind]

/-- Every frame but SETTINGS. -/
theorem adds_frame [Platform] (f : Frame) (h : ∀ g, f ≠ .settings g) : Adds f.dump := by
  cases f with
  | data f => exact adds_data f
  | headers f => exact adds_headers f
  | priority f =>
      intro s p
      show PriorityFrame.dump _ _ = PriorityFrame.dump _ _ >>= _
      unfold PriorityFrame.dump
      rw [start_add, text_add, Res.ok_bind]
  | rstStream f =>
      intro s p
      show RstStreamFrame.dump _ _ = RstStreamFrame.dump _ _ >>= _
      unfold RstStreamFrame.dump
      rw [start_add, adds_errorCode]
  | settings f => exact absurd rfl (h f)
  | pushPromise f => exact adds_pushPromise f
  | ping f =>
      intro s p
      show PingFrame.dump _ _ = PingFrame.dump _ _ >>= _
      unfold PingFrame.dump
      rw [start_add, hexBytes_add, text_add, Res.ok_bind]
  | goaway f => exact adds_goaway f
  | windowUpdate f =>
      intro s p
      show WindowUpdateFrame.dump _ _ = WindowUpdateFrame.dump _ _ >>= _
      unfold WindowUpdateFrame.dump
      rw [start_add, text_add, Res.ok_bind]
  | continuation f => exact adds_continuation f
  | raw f =>
      intro s p
      show RawFrame.dump _ _ = RawFrame.dump _ _ >>= _
      unfold RawFrame.dump
      rw [start_add, hexBytes_add, text_add, Res.ok_bind]

end Mh2c
