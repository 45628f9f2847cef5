import Verif.Props.Client
import Verif.Props.Transport
import Verif.Props.HeaderRfc
import Verif.Props.Split

/-! C97, C98: what an exception leaves behind. -/

namespace Mh2c
open Rfc

/-! ## C97: a frame that receive_frame rejects -/

/-- C97, the part that holds: a frame that was delivered by the transport and rejected by
receive_frame is skipped. The client is then the client of a server that never sent it: the next
frame is next, tables and everything sent are as before. Missing: the changes the frame's header
block makes to the server's table (see `C97_rejected_block_violated`). -/
theorem C97_skipped_partial [Platform] (c : Client) (e : Exc) (frame rest : Bytes)
    (hi : c.conn.incoming = frame ++ rest) (hl : frame.length = frameLength c.conn.incoming)
    (hw : Willing c.conn.reads frame.length) (h : c.receiveFrame.1 = .throw e) :
    ∃ reads, reads <:+ c.conn.reads ∧
      c.receiveFrame.2 = { c with conn := { c.conn with incoming := rest, reads := reads } } := by
  rw [hl] at hw
  obtain ⟨fh, j, -, -, -, h3⟩ := receiveFrame_progress c
    (by show frameLength c.conn.incoming ≤ _; rw [← hl, hi]; simp) hw.1 hw.2
  refine ⟨c.conn.reads.drop j, List.drop_suffix _ _, ?_⟩
  rw [h3, processFrame_eq] at h ⊢
  have ht := (processTable_throw h).1
  have hd : c.conn.incoming.drop (9 + beValue (c.conn.incoming.take 3)) = rest := by
    show c.conn.incoming.drop (frameLength c.conn.incoming) = rest
    rw [← hl, hi, List.drop_left]
  simp only [Client.consumed] at ht ⊢
  rw [ht, hd]

/-- C97 is false where header blocks are concerned. Both ends hold `x: y`. The server sends, in
accordance with RFC 7541, a promise that inserts `k: v` and then refers to `x: y`, and a response
with a reference to `k: v`. The client rejects the first (the reference is looked up in the table of
before the insertion) and delivers the second as `x: y`: wrong, and without a sign of it. -/
theorem C97_rejected_block_violated [P : Platform] :
    (∃ t1 t2 : Table,
      BlockDecodes ⟨[([120], [121])], 4096⟩ ([0x40, 1, 107, 1, 118] ++ [0xbf])
        [.incremental ([107], [118]), .indexed ([120], [121])] t1 ∧
      BlockDecodes t1 [0xbe] [.indexed ([107], [118])] t2) ∧
    (receiver (frameOctets 5 4 1 ([0, 0, 0, 2] ++ ([0x40, 1, 107, 1, 118] ++ [0xbf])) ++
      frameOctets 1 4 1 [0xbe])).receiveFrame.1 = .throw .outOfRange ∧
    headerLists 1 (receiver (frameOctets 5 4 1 ([0, 0, 0, 2] ++ ([0x40, 1, 107, 1, 118] ++ [0xbf])) ++
      frameOctets 1 4 1 [0xbe])).receiveFrame.2 = [[([120], [121])]] := by
  refine ⟨⟨⟨[([107], [118]), ([120], [121])], 4096⟩, ⟨[([107], [118]), ([120], [121])], 4096⟩, ?_, ?_⟩,
    ?_, ?_⟩
  · refine .cons _ _ _ [0xbf] _ _ (.incremental _ _ _ _ (by decide) ?_) ?_
    · exact .newName _ [1, 107, 1, 118, 0xbf] [1, 118, 0xbf] [0xbf] _ _ (by decide)
        (.plain 1 _ [107] _ (by decide) (by decide)) (.plain 1 _ [118] _ (by decide) (by decide))
    · exact .cons _ _ _ [] _ _ (.indexed 0xbf _ _ 63 _ (by decide) (by decide) (by decide)) (.nil _)
  · exact .cons _ _ _ [] _ _ (.indexed 0xbe _ _ 62 _ (by decide) (by decide) (by decide)) (.nil _)
  · rcases P with ⟨_ | _, _ | _⟩ <;> decide +kernel
  · rcases P with ⟨_ | _, _ | _⟩ <;> decide +kernel

attribute [local instance] x86 in
/-- The hypotheses of `C97_skipped_partial` on a promise with a reference to a missing entry. -/
example : (receiver (frameOctets 5 4 1 [0, 0, 0, 2, 0xbf] ++ frameOctets 1 4 1 [0xbe])).receiveFrame.1 =
      .throw .outOfRange ∧
    (frameOctets 5 4 1 [0, 0, 0, 2, 0xbf]).length = frameLength (frameOctets 5 4 1 [0, 0, 0, 2, 0xbf] ++
      frameOctets 1 4 1 [0xbe]) ∧
    Willing (receiver []).conn.reads (frameOctets 5 4 1 [0, 0, 0, 2, 0xbf]).length := by
  decide +kernel

/-! ## C98: a frame that send_frame could not send -/

/-- C98, the part that holds: up to a failure every frame is on the wire complete and in order; of
the frame that failed there is a part that is not all of it. Missing: sending on after the failure
(see `C98_next_frame_violated`). -/
theorem C98_before_failure_partial [Platform] (frames : List Frame) (wires : List Bytes) (c : Client)
    (hs : List.Forall₂ (fun f w => f.serialize = .ok w) frames wires) :
    ((sendUntil frames c).1 = .ok () ∧
      (sendUntil frames c).2.conn.sent = c.conn.sent ++ wires.flatten) ∨
    ((sendUntil frames c).1 = .throw .runtimeError ∧ ∃ before after part rest,
      wires = before ++ (part ++ rest) :: after ∧ rest ≠ [] ∧
      (sendUntil frames c).2.conn.sent = c.conn.sent ++ before.flatten ++ part) := by
  induction hs generalizing c with
  | nil => exact .inl ⟨rfl, by simp [sendUntil]⟩
  | @cons f w fs ws h1 _ ih =>
      obtain ⟨sent, writes, g1, -, g⟩ := C55_send c w
      have hc : c.sendFrame f = c.sendRawData w := by unfold Client.sendFrame; rw [h1]
      rw [sendUntil, hc]
      cases hr : c.sendRawData w with
      | mk r d =>
          rw [hr] at g g1
          simp only at g g1
          have hsent : d.conn.sent = sent := by rw [g1]
          rcases g with ⟨g2, g3⟩ | ⟨g2, part, rest, g3, g4, g5⟩
          · subst g2
            simp only
            rcases ih d with ⟨i1, i2⟩ | ⟨i1, before, after, part, rest, i2, i3, i4⟩
            · refine .inl ⟨i1, ?_⟩
              rw [i2, hsent, g3, List.flatten_cons, List.append_assoc]
            · refine .inr ⟨i1, w :: before, after, part, rest, by rw [i2]; rfl, i3, ?_⟩
              rw [i4, hsent, g3]
              simp
          · subst g2
            simp only
            refine .inr ⟨trivial, [], ws, part, rest, by rw [g3]; rfl, g4, ?_⟩
            rw [hsent, g5]
            simp

/-- A client over a transport that accepts five octets, then fails once, then works. -/
def interrupted : Client := Client.new ⟨[], [], [], [5, 0, 64]⟩

/-- C98 is false of the code: a PING fails, the program goes on and its RST_STREAM is reported as
sent. On the wire is the beginning of the PING and then the RST_STREAM: the peer finds a PING on
stream 0x403, with data that were the RST_STREAM's, and no RST_STREAM. -/
theorem C98_next_frame_violated [P : Platform] :
    (interrupted.sendFrame (.ping ⟨⟨8, 6, 0, 0, 0⟩, [1, 2, 3, 4, 5, 6, 7, 8]⟩)).1 = .throw .runtimeError ∧
    ((interrupted.sendFrame (.ping ⟨⟨8, 6, 0, 0, 0⟩, [1, 2, 3, 4, 5, 6, 7, 8]⟩)).2.sendFrame
      (.rstStream (.new 1 8))).1 = .ok () ∧
    ((interrupted.sendFrame (.ping ⟨⟨8, 6, 0, 0, 0⟩, [1, 2, 3, 4, 5, 6, 7, 8]⟩)).2.sendFrame
      (.rstStream (.new 1 8))).2.conn.sent = [0, 0, 8, 6, 0] ++ frameOctets 3 0 1 [0, 0, 0, 8] ∧
    [0, 0, 8, 6, 0] ++ frameOctets 3 0 1 [0, 0, 0, 8] = frameOctets 6 0 0x403 [0, 0, 0, 0, 1, 0, 0, 0] ++ [8] := by
  rcases P with ⟨_ | _, _ | _⟩ <;> decide +kernel

attribute [local instance] x86 in
/-- Both cases of `C98_before_failure_partial` occur. -/
example : (sendUntil [.rstStream (.new 1 8), .rstStream (.new 3 8)] (Client.new ⟨[], [], [], [64, 2, 64]⟩)).1 = .ok () ∧
    (sendUntil [.rstStream (.new 1 8), .rstStream (.new 3 8)] (Client.new ⟨[], [], [], [64, 2, 0]⟩)).1 =
      .throw .runtimeError ∧
    (sendUntil [.rstStream (.new 1 8), .rstStream (.new 3 8)]
      (Client.new ⟨[], [], [], [64, 2, 0]⟩)).2.conn.sent = frameOctets 3 0 1 [0, 0, 0, 8] ++ [0, 0] := by
  decide +kernel

/-- C98, exactly. A program goes on after a failure and all it sends then, `more`, is sent. On the wire
are the frames before the failure, a part of the frame that failed, and `more`. So the peer is sent
frames and nothing else if and only if nothing of the frame that failed had been sent, which the
program is not told. Missing (false of the code): the other failures. -/
theorem C98_exact_partial [Platform] (frames more : List Frame) (wires moreWires : List Bytes)
    (c : Client) (hs : List.Forall₂ (fun f w => f.serialize = .ok w) frames wires)
    (hm : List.Forall₂ (fun f w => f.serialize = .ok w) more moreWires)
    (hfail : (sendUntil frames c).1 ≠ .ok ())
    (hok : (sendUntil more (sendUntil frames c).2).1 = .ok ()) :
    ∃ before after part rest, wires = before ++ (part ++ rest) :: after ∧ rest ≠ [] ∧
      (sendUntil more (sendUntil frames c).2).2.conn.sent =
        c.conn.sent ++ before.flatten ++ part ++ moreWires.flatten ∧
      ((sendUntil more (sendUntil frames c).2).2.conn.sent =
        c.conn.sent ++ (before ++ moreWires).flatten ↔ part = []) := by
  rcases C98_before_failure_partial frames wires c hs with ⟨h, -⟩ | ⟨-, before, after, part, rest, h1, h2, h3⟩
  · exact absurd h hfail
  · rcases C98_before_failure_partial more moreWires (sendUntil frames c).2 hm with ⟨-, g⟩ | ⟨g, -⟩
    · refine ⟨before, after, part, rest, h1, h2, by rw [g, h3], ?_⟩
      rw [g, h3]
      constructor
      · intro h
        have := congrArg List.length h
        simp only [List.length_append, List.flatten_append] at this
        exact List.eq_nil_of_length_eq_zero (by omega)
      · rintro rfl
        simp
    · rw [g] at hok
      cases hok

attribute [local instance] x86 in
/-- The hypotheses of `C98_exact_partial`: one octet of the first frame was sent, or none. -/
example : (sendUntil [.rstStream (.new 1 8)] (Client.new ⟨[], [], [], [1, 0, 64]⟩)).1 ≠ .ok () ∧
    (sendUntil [.rstStream (.new 3 8)]
      (sendUntil [.rstStream (.new 1 8)] (Client.new ⟨[], [], [], [1, 0, 64]⟩)).2).1 = .ok () ∧
    (sendUntil [.rstStream (.new 1 8)] (Client.new ⟨[], [], [], [0, 64]⟩)).1 ≠ .ok () ∧
    (sendUntil [.rstStream (.new 3 8)]
      (sendUntil [.rstStream (.new 1 8)] (Client.new ⟨[], [], [], [0, 64]⟩)).2).1 = .ok () := by
  decide +kernel

end Mh2c
