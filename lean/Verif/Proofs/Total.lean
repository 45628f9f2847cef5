/-
Helper lemmas: no operation of the model diverges.
-/
import Verif.Proofs.HeaderProgress
import Verif.Proofs.Session
import Verif.Proofs.HuffmanEncode
import Verif.Model.Dump

namespace Mh2c

open Rfc

theorem shlInt_ne_diverge (a k : Nat) : shlInt a k ≠ .diverge := by
  unfold shlInt; split <;> simp

theorem bytes2integral_ne_diverge (size : Nat) (v : Bytes) : bytes2integral size v ≠ .diverge := by
  unfold bytes2integral
  have : ∀ left v acc, bytes2integralLoop size left v acc ≠ .diverge := by
    intro left
    induction left with
    | zero => intro v acc; simp [bytes2integralLoop]
    | succ n ih =>
        intro v acc
        cases v with
        | nil => simp [bytes2integralLoop]
        | cons b bs =>
            rw [bytes2integralLoop]
            exact bind_ne_diverge (shlInt_ne_diverge _ _) (fun _ _ => ih _ _)
  exact this _ _ _

theorem readAt_ne_diverge (v : Bytes) (i : Nat) : readAt v i ≠ .diverge := by
  unfold readAt; split <;> simp

theorem extractPadding_ne_diverge (flags : UInt8) (raw : Bytes) :
    extractPadding flags raw ≠ .diverge := by
  unfold extractPadding
  split
  · refine bind_ne_diverge (front_ne_diverge _) (fun p _ => ?_)
    split
    · simp
    · exact bind_ne_diverge (eraseFirst_ne_diverge _ _) (fun _ _ => by simp)
  · simp

theorem extractPriority_ne_diverge (flags : UInt8) (raw : Bytes) :
    extractPriority flags raw ≠ .diverge := by
  unfold extractPriority
  split
  · refine bind_ne_diverge (copyRange_ne_diverge _ _ _) (fun _ _ => ?_)
    refine bind_ne_diverge (readAt_ne_diverge _ _) (fun _ _ => ?_)
    refine bind_ne_diverge (bytes2integral_ne_diverge _ _) (fun _ _ => ?_)
    refine bind_ne_diverge (eraseFirst_ne_diverge _ _) (fun _ _ => ?_)
    refine bind_ne_diverge (front_ne_diverge _) (fun _ _ => ?_)
    exact bind_ne_diverge (eraseFirst_ne_diverge _ _) (fun _ _ => by simp)
  · simp

theorem headers_ofRaw_ne_diverge [Platform] (fh : FrameHeader) (raw : Bytes) (t : DynamicTable) :
    HeadersFrame.ofRaw fh raw t ≠ .diverge := by
  unfold HeadersFrame.ofRaw
  refine bind_ne_diverge (extractPadding_ne_diverge _ _) ?_
  rintro ⟨a, b⟩ _
  refine bind_ne_diverge (extractPriority_ne_diverge _ _) ?_
  rintro ⟨c, d⟩ _
  exact bind_ne_diverge (decodeHeaderBlock_ne_diverge _ _) (fun _ _ => by simp)

theorem pushPromise_ofRaw_ne_diverge [Platform] (fh : FrameHeader) (raw : Bytes) (t : DynamicTable) :
    PushPromiseFrame.ofRaw fh raw t ≠ .diverge := by
  unfold PushPromiseFrame.ofRaw
  refine bind_ne_diverge (extractPadding_ne_diverge _ _) ?_
  rintro ⟨a, b⟩ _
  refine bind_ne_diverge (readAt_ne_diverge _ _) (fun _ _ => ?_)
  refine bind_ne_diverge (bytes2integral_ne_diverge _ _) (fun _ _ => ?_)
  refine bind_ne_diverge (eraseFirst_ne_diverge _ _) (fun _ _ => ?_)
  exact bind_ne_diverge (decodeHeaderBlock_ne_diverge _ _) (fun _ _ => by simp)

theorem validatePriority_ne_diverge (p : PriorityOption) : validatePriority p ≠ .diverge := by
  unfold validatePriority
  split
  · simp
  · split <;> simp

theorem validateWindowSize_ne_diverge (n : UInt32) : validateWindowSize n ≠ .diverge := by
  unfold validateWindowSize; split <;> simp

theorem parseSettings_ne_diverge (raw : Bytes) (acc : SfPayload) :
    parseSettings raw acc ≠ .diverge := by
  induction hn : raw.length using Nat.strong_induction_on generalizing raw acc with
  | _ n ih =>
      subst hn
      cases raw with
      | nil => simp [parseSettings]
      | cons b bs =>
          rw [parseSettings]
          refine bind_ne_diverge (bytes2integral_ne_diverge _ _) (fun _ _ => ?_)
          refine bind_ne_diverge (bytes2integral_ne_diverge _ _) (fun _ _ => ?_)
          exact ih _ (by simp; omega) _ _ rfl

theorem buildFrame_ne_diverge [Platform] (fh : FrameHeader) (raw : Bytes) (t : DynamicTable) :
    buildFrame fh raw t ≠ .diverge := by
  unfold buildFrame
  split
  · simp [buildDataFrame]
  · unfold buildHeadersFrame
    have := headers_ofRaw_ne_diverge fh raw t
    cases h : HeadersFrame.ofRaw fh raw t with
    | diverge => exact absurd h this
    | _ => simp
  · refine bind_ne_diverge ?_ (fun _ _ => by simp)
    unfold PriorityFrame.ofRaw PriorityFrame.constructPayload
    refine bind_ne_diverge ?_ (fun _ _ => bind_ne_diverge (validatePriority_ne_diverge _) (by simp))
    split
    · simp
    · refine bind_ne_diverge (readAt_ne_diverge _ _) (fun _ _ => ?_)
      refine bind_ne_diverge (bytes2integral_ne_diverge _ _) (fun _ _ => ?_)
      exact bind_ne_diverge (readAt_ne_diverge _ _) (fun _ _ => by simp)
  · refine bind_ne_diverge ?_ (fun _ _ => by simp)
    unfold RstStreamFrame.ofRaw
    split
    · simp
    · exact bind_ne_diverge (bytes2integral_ne_diverge _ _) (fun _ _ => by simp)
  · exact bind_ne_diverge (parseSettings_ne_diverge _ _) (fun _ _ => by simp)
  · exact bind_ne_diverge (pushPromise_ofRaw_ne_diverge _ _ _) (fun _ _ => by simp)
  · simp [PingFrame.ofRaw]
  · refine bind_ne_diverge ?_ (fun _ _ => by simp)
    unfold GoawayFrame.ofRaw
    split
    · simp
    · refine bind_ne_diverge (bytes2integral_ne_diverge _ _) (fun _ _ => ?_)
      exact bind_ne_diverge (bytes2integral_ne_diverge _ _) (fun _ _ => by simp)
  · refine bind_ne_diverge ?_ (fun _ _ => by simp)
    unfold WindowUpdateFrame.ofRaw
    refine bind_ne_diverge ?_ (fun _ _ => bind_ne_diverge ?_ (fun _ _ =>
      bind_ne_diverge (validateWindowSize_ne_diverge _) (by simp)))
    · unfold constructReserved
      split
      · simp
      · exact bind_ne_diverge (readAt_ne_diverge _ _) (fun _ _ => by simp)
    · unfold constructWindowSize
      split
      · simp
      · exact bind_ne_diverge (bytes2integral_ne_diverge _ _) (fun _ _ => by simp)
  · exact bind_ne_diverge (bind_ne_diverge (decodeHeaderBlock_ne_diverge _ _) (fun _ _ => by simp))
      (fun _ _ => by simp)
  · simp

theorem receiveFrame_ne_diverge [Platform] (c : Client) : c.receiveFrame.1 ≠ .diverge := by
  obtain ⟨reads', -, ⟨k, -, -, h⟩ | ⟨fh, -, -, -, -, h⟩⟩ := receiveFrame_cases c
  · rw [h]; simp
  · rw [h, processFrame_eq]
    change (processTable fh _ c.responseTable).1 ≠ _
    unfold processTable
    cases hb : buildFrame fh ((c.conn.incoming.drop 9).take (beValue (c.conn.incoming.take 3)))
        c.responseTable with
    | ok f =>
        simp only
        have hnd := updateFrame_ne_diverge f c.responseTable
        rcases hu : updateDynamicTableFrame f c.responseTable with ⟨_ | e | k | _, t'⟩
        · simp
        · simp
        · simp
        · exact absurd (by rw [hu]) hnd
    | throw e => simp
    | ub k => simp
    | diverge => exact absurd hb (buildFrame_ne_diverge _ _ _)

/-! ### Sending -/

theorem orFirst_ne_diverge (b : UInt8) (v : Bytes) : orFirst b v ≠ .diverge := by
  cases v <;> simp [orFirst]

theorem huffmanEncode_ne_diverge (v : Bytes) : Huffman.encode v ≠ .diverge := by
  obtain ⟨w, p, h, -⟩ := encode_spec v
  rw [h]; simp

theorem encodeIndex_ne_diverge (i : Nat) (p : HeaderPrefix) : encodeIndex i p ≠ .diverge := by
  unfold encodeIndex
  split <;> first | exact orFirst_ne_diverge _ _ | simp

theorem encodeString_ne_diverge (v : Bytes) (mode : EncodeMode) :
    encodeHeaderValue v mode ≠ .diverge ∧ encodeHeaderName v mode ≠ .diverge := by
  unfold encodeHeaderValue encodeHeaderName
  have h : ∀ b : Bytes, (orFirst mode.value (encodeIntegerValue 7 b.length) >>= fun len =>
      (pure (len ++ b) : Res Bytes)) ≠ .diverge :=
    fun b => bind_ne_diverge (orFirst_ne_diverge _ _) (fun _ _ => by simp [pure])
  constructor <;>
  · simp only
    split
    · exact bind_ne_diverge (huffmanEncode_ne_diverge _) (fun b _ => h b)
    · exact h v

theorem encodeHeader_ne_diverge (e : HeaderEntry) (mode : EncodeMode) (t : DynamicTable) :
    encodeHeader e mode t ≠ .diverge := by
  have hd : ∀ p h, encodeDynamicOrLiteral p h mode t ≠ .diverge := by
    intro p h
    unfold encodeDynamicOrLiteral
    split
    · exact encodeIndex_ne_diverge _ _
    · unfold encodeLiteral
      split
      · refine bind_ne_diverge (encodeIndex_ne_diverge _ _) (fun _ _ => ?_)
        exact bind_ne_diverge (encodeString_ne_diverge _ _).1 (by simp)
      · refine bind_ne_diverge (encodeIndex_ne_diverge _ _) (fun _ _ => ?_)
        refine bind_ne_diverge (encodeString_ne_diverge _ _).2 (fun _ _ => ?_)
        exact bind_ne_diverge (encodeString_ne_diverge _ _).1 (by simp)
  unfold encodeHeader
  split
  · refine bind_ne_diverge ?_ (fun _ _ => orFirst_ne_diverge _ _)
    unfold HeaderEntry.getMaxSize; split <;> simp
  · refine bind_ne_diverge ?_ (fun _ _ => ?_)
    · unfold HeaderEntry.getHeader; split <;> simp
    · split
      · split
        · exact encodeIndex_ne_diverge _ _
        · exact hd _ _
      · exact hd _ _

theorem encodeHeaderBlock_ne_diverge (b : HeaderBlock) (mode : EncodeMode) (t : DynamicTable) :
    encodeHeaderBlock b mode t ≠ .diverge := by
  induction b with
  | nil => simp [encodeHeaderBlock]
  | cons e es ih =>
      rw [encodeHeaderBlock]
      exact bind_ne_diverge (encodeHeader_ne_diverge _ _ _) (fun _ _ =>
        bind_ne_diverge ih (by simp))

theorem serialize_ne_diverge [Platform] (f : Frame) : f.serialize ≠ .diverge := by
  cases f with
  | goaway f =>
      show GoawayFrame.serialize f ≠ _
      unfold GoawayFrame.serialize
      exact bind_ne_diverge (shlInt_ne_diverge _ _) (by simp)
  | _ => intro h; cases h

theorem sendRaw_ne_diverge (c : Client) (data : Bytes) : (c.sendRawData data).1 ≠ .diverge := by
  obtain ⟨w, -, h | ⟨k, -, h⟩⟩ := writeLoop_spec c.conn.writes c.conn.sent data <;>
  · unfold Client.sendRawData Conn.write
    rw [h]
    simp

end Mh2c
