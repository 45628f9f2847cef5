/-
C73: every call comes back.
-/
import Verif.Proofs.Total
import Verif.Props.Sample

namespace Mh2c

open Rfc

/-- C73. Whatever octets arrive, building a frame from them ends. -/
theorem C73_build [Platform] (fh : FrameHeader) (raw : Bytes) (table : DynamicTable) :
    buildFrame fh raw table ≠ .diverge := buildFrame_ne_diverge fh raw table

/-- C73. Decoding a header block or a Huffman string ends, for all octets. -/
theorem C73_decode [Platform] (raw : Bytes) (table : DynamicTable) :
    decodeHeaderBlock raw table ≠ .diverge ∧ Huffman.decode raw ≠ .diverge :=
  ⟨decodeHeaderBlock_ne_diverge raw table, decode_ne_diverge raw⟩

/-- C73. Encoding a header block or a Huffman string ends, for all arguments, and so do the
constructors and `serialize`. -/
theorem C73_encode [Platform] (block : HeaderBlock) (mode : EncodeMode) (table : DynamicTable)
    (raw : Bytes) (f : Frame) :
    encodeHeaderBlock block mode table ≠ .diverge ∧ Huffman.encode raw ≠ .diverge ∧
      f.serialize ≠ .diverge :=
  ⟨encodeHeaderBlock_ne_diverge block mode table, huffmanEncode_ne_diverge raw,
    serialize_ne_diverge f⟩

/-- C73. Every client operation ends in every state: it returns, throws or is undefined. (The
transport schedule is a list of calls that come back; a transport call that blocks for ever is not
in the model.) -/
theorem C73_client [Platform] (c : Client) (op : Op) : (op.run c).1 ≠ .diverge := by
  cases op with
  | sendPreface => exact sendRaw_ne_diverge c _
  | sendRaw data => exact sendRaw_ne_diverge c data
  | receiveRaw n =>
      have : (c.receiveRawData n).1 ≠ .diverge := by
        unfold Client.receiveRawData Conn.read
        obtain ⟨r1, -, ⟨-, -, h⟩ | ⟨k, -, -, h⟩⟩ := readLoop_spec c.conn.reads c.conn.incoming n <;>
          rw [h] <;> simp
      unfold Op.run
      rcases c.receiveRawData n with ⟨r, c'⟩
      exact bind_ne_diverge this (fun _ _ => by simp)
  | sendFrame f =>
      show (c.sendFrame f).1 ≠ _
      unfold Client.sendFrame
      have := serialize_ne_diverge f
      cases hs : f.serialize with
      | ok raw => exact sendRaw_ne_diverge c raw
      | throw e => simp
      | ub k => simp
      | diverge => exact absurd hs this
  | receiveFrame =>
      have := receiveFrame_ne_diverge c
      unfold Op.run
      rcases c.receiveFrame with ⟨r, c'⟩
      exact bind_ne_diverge this (fun _ _ => by simp)
  | updateRequestBlock b =>
      show (updateDynamicTable b c.requestTable).1 ≠ _
      exact updateDynamicTable_ne_diverge b c.requestTable
  | updateRequestSize n =>
      show (c.updateRequestTableSize n).1 ≠ _
      unfold Client.updateRequestTableSize
      have := updateTableSize_ne_diverge c.requestTable n
      cases h : c.requestTable.updateTableSize n with
      | diverge => exact absurd h this
      | _ => simp

/-- C73. Printing ends. -/
theorem C73_print [Platform] (f : Frame) (s : Stream) : f.dump s ≠ .diverge := by
  have hb : ∀ (b : HeaderBlock) (s : Stream), dumpBlock b s ≠ .diverge := by
    intro b
    induction b with
    | nil => intro s; simp [dumpBlock]
    | cons e es ih =>
        intro s
        rw [dumpBlock]
        refine bind_ne_diverge ?_ (fun _ _ => ih _)
        unfold dumpEntry HeaderEntry.getMaxSize HeaderEntry.getHeader
        split <;> cases e.entry <;> simp
  have hm : ∀ m k, mapAt m k ≠ .diverge := by
    intro m k; unfold mapAt; split <;> simp
  have hc : ∀ c s, dumpErrorCode c s ≠ .diverge := by
    intro c s
    unfold dumpErrorCode
    split <;> exact bind_ne_diverge (hm _ _) (fun _ _ => by simp)
  cases f with
  | data f =>
      show DataFrame.dump f s ≠ _
      unfold DataFrame.dump
      refine bind_ne_diverge ?_ (fun _ _ => by simp)
      unfold DataFrame.parts
      split
      · refine bind_ne_diverge (readAt_ne_diverge _ _) (fun _ _ => ?_)
        refine bind_ne_diverge (addressRange_ne_diverge _ _ _) (fun _ _ => ?_)
        split <;> simp
      · exact bind_ne_diverge (addressRange_ne_diverge _ _ _) (fun _ _ => by simp)
  | headers f => exact bind_ne_diverge (hb _ _) (fun _ _ => by simp)
  | pushPromise f => exact bind_ne_diverge (hb _ _) (fun _ _ => by simp)
  | continuation f => exact hb _ _
  | rstStream f => exact hc _ _
  | goaway f =>
      refine bind_ne_diverge (hc _ _) (fun _ _ => ?_)
      unfold cString
      simp only
      split
      · simp
      · split <;> simp
  | settings f =>
      show dumpSettings _ _ ≠ _
      generalize dumpStart _ f.header s = s0
      induction f.payload generalizing s0 with
      | nil => simp [dumpSettings]
      | cons p ps ih =>
          rw [dumpSettings]
          refine bind_ne_diverge ?_ (fun _ _ => ih _)
          unfold dumpSetting
          split <;> exact bind_ne_diverge (hm _ _) (fun _ _ => by simp)
  | priority f => intro h; cases h
  | ping f => intro h; cases h
  | windowUpdate f => intro h; cases h
  | raw f => intro h; cases h

attribute [local instance] x86 in
/-- The three ways in which a call ends: it returns, it throws, it is undefined. -/
example :
    buildFrame ⟨6, 4, 0, 0, 0⟩ [0, 4, 0, 0, 255, 255] .default =
      .ok (.settings ⟨⟨6, 4, 0, 0, 0⟩, [(4, 65535)]⟩) ∧
    buildFrame ⟨1, 10, 0, 0, 0⟩ [0] .default = .throw .outOfRange ∧
    buildFrame ⟨5, 4, 0, 0, 0⟩ [0, 4, 0, 0, 255] .default = .ub .outOfBounds := by decide +kernel

end Mh2c
