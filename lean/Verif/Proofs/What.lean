/-
The functions with texts of exceptions are the functions without, but for the text.
-/
import Verif.Model.What
import Verif.Proofs.Causes

namespace Mh2c

namespace Told

variable {α β : Type}

@[simp] theorem toRes_ok (a : α) : (ok a).toRes = .ok a := rfl
@[simp] theorem toRes_throw (e : Exc) (w : What) : (throw e w : Told α).toRes = .throw e := rfl
@[simp] theorem toRes_ub (k : Ub) : (ub k : Told α).toRes = .ub k := rfl
@[simp] theorem toRes_diverge : (diverge : Told α).toRes = .diverge := rfl
@[simp] theorem toRes_pure (a : α) : (pure a : Told α).toRes = .ok a := rfl
@[simp] theorem ok_bind (a : α) (f : α → Told β) : (ok a >>= f) = f a := rfl
@[simp] theorem throw_bind (e : Exc) (w : What) (f : α → Told β) :
    (throw e w >>= f) = throw e w := rfl
@[simp] theorem ub_bind (k : Ub) (f : α → Told β) : (ub k >>= f) = ub k := rfl
@[simp] theorem diverge_bind (f : α → Told β) : (diverge >>= f) = diverge := rfl
@[simp] theorem pure_eq (a : α) : (pure a : Told α) = ok a := rfl

@[simp] theorem toRes_saying (w : What) (x : Res α) : (saying w x).toRes = x := by
  cases x <;> rfl

@[simp] theorem toRes_quiet (x : Res α) : (quiet x).toRes = x := toRes_saying _ x

@[simp] theorem toRes_bind (x : Told α) (f : α → Told β) :
    (x >>= f).toRes = x.toRes >>= fun a => (f a).toRes := by
  cases x <;> rfl

theorem bind_eq_throw {x : Told α} {f : α → Told β} {e : Exc} {w : What}
    (h : (x >>= f) = throw e w) : x = throw e w ∨ ∃ a, x = ok a ∧ f a = throw e w := by
  cases x with
  | ok a => exact Or.inr ⟨a, rfl, h⟩
  | throw e' w' => exact Or.inl (by injection h with h1 h2; rw [h1, h2])
  | ub k => cases h
  | diverge => cases h

theorem saying_eq_throw {w w' : What} {x : Res α} {e : Exc} (h : saying w x = throw e w') :
    x = .throw e ∧ w' = w := by
  cases x with
  | throw e' => injection h with h1 h2; exact ⟨by rw [h1], h2.symm⟩
  | _ => cases h

theorem saying_eq_ok {w : What} {x : Res α} {a : α} : saying w x = ok a ↔ x = .ok a := by
  cases x <;> simp [saying]

/-- Nothing but the text is new. -/
theorem toRes_eq_throw {x : Told α} {e : Exc} : x.toRes = .throw e ↔ ∃ w, x = throw e w := by
  cases x <;> simp [toRes]

theorem toRes_eq_ok {x : Told α} {a : α} : x.toRes = .ok a ↔ x = ok a := by
  cases x <;> simp [toRes]

end Told

open Told

namespace Huffman

theorem constructIntegerTold_toRes (data : Bytes) (n : Nat) :
    (constructIntegerTold data n).toRes = constructInteger data n := by
  unfold constructIntegerTold constructInteger
  split <;> simp

theorem candidateTold_toRes (temp : Bytes) (carry : Rec) (n : Nat) :
    (candidateTold temp carry n).toRes = candidate temp carry n := by
  unfold candidateTold candidate
  split <;> simp [constructIntegerTold_toRes]

theorem searchTold_toRes (temp : Bytes) (carry : Rec) (l : List (Nat × List (Nat × Nat))) :
    (searchTold temp carry l).toRes = search temp carry l := by
  induction l with
  | nil => rfl
  | cons x rest ih =>
      obtain ⟨bitLength, decodeMap⟩ := x
      unfold searchTold search
      split
      · rfl
      · rw [toRes_bind, candidateTold_toRes]
        congr 1
        funext ⟨key, carry', er⟩
        simp only
        cases List.lookup key decodeMap with
        | some sym => rfl
        | none => exact ih

theorem decodeLoopTold_toRes (total decoded : Nat) (temp : Bytes) (carry : Rec) (out : Bytes) :
    (decodeLoopTold total decoded temp carry out).toRes = decodeLoop total decoded temp carry out := by
  unfold decodeLoopTold decodeLoop
  split
  swap
  · rfl
  rw [← searchTold_toRes]
  cases searchTold temp carry decodeTable with
  | throw e w => rfl
  | ub k => rfl
  | diverge => rfl
  | ok found =>
      cases found with
      | none =>
          match temp with
          | [] => rfl
          | [_] => rfl
          | [_, _] => rfl
          | [_, _, _] => rfl
          | t0 :: t1 :: t2 :: t3 :: ts =>
              simp only [toRes_ok]
              rw [if_neg (by simp only [List.length_cons]; omega)]
              rfl
      | some f =>
          cases f with
          | leftover =>
              simp only [toRes_ok]
              split
              · exact decodeLoopTold_toRes _ _ _ _ _
              · rfl
          | symbol sym bitLength eraseLength carry' =>
              simp only [toRes_ok]
              cases eraseFirst eraseLength temp with
              | ok temp' =>
                  simp only
                  split
                  · exact decodeLoopTold_toRes _ _ _ _ _
                  · rfl
              | _ => rfl
termination_by total - decoded

theorem decodeTold_toRes (encoded : Bytes) : (decodeTold encoded).toRes = decode encoded :=
  decodeLoopTold_toRes _ _ _ _ _

end Huffman

theorem decodeHeaderStringTold_toRes [Platform] (v : Bytes) :
    (decodeHeaderStringTold v).toRes = decodeHeaderString v := by
  unfold decodeHeaderStringTold decodeHeaderString
  simp only [toRes_bind, toRes_quiet]
  congr 1
  funext ⟨length, intLength⟩
  simp only
  congr 1
  funext first
  split <;> simp [Huffman.decodeTold_toRes]

theorem makeIndexedHeaderTold_toRes (i : Nat) (t : DynamicTable) :
    (makeIndexedHeaderTold i t).toRes = makeIndexedHeader i t := by
  unfold makeIndexedHeaderTold makeIndexedHeader
  split <;> simp

theorem decodeLiteralTold_toRes [Platform] (v : Bytes) (p : HeaderPrefix) (h : Header) (n : Nat) :
    (decodeLiteralTold v p h n).toRes = decodeLiteral v p h n := by
  unfold decodeLiteralTold decodeLiteral
  simp only [toRes_bind, toRes_quiet]
  congr 1
  funext data
  split <;> simp [decodeHeaderStringTold_toRes]

theorem decodeHeaderTold_toRes [Platform] (v : Bytes) (t : DynamicTable) :
    (decodeHeaderTold v t).toRes = decodeHeader v t := by
  unfold decodeHeaderTold decodeHeader checkPrefixTold decodeIndexTold
  simp only [toRes_bind, toRes_quiet, toRes_saying]
  congr 1
  funext first
  congr 1
  funext p
  split
  · simp
  · simp only [toRes_bind, toRes_saying]
    congr 1
    funext ⟨index, il⟩
    simp only
    split
    · simp only [toRes_bind, makeIndexedHeaderTold_toRes]
      congr 1
      funext ih
      split
      · rfl
      · exact decodeLiteralTold_toRes _ _ _ _
    · simp only [toRes_bind]
      show (if _ then _ else _ : Told _).toRes = _
      split
      · rename_i hp; simp [hp]
      · rename_i hp; simp [decodeLiteralTold_toRes]

theorem decodeHeaderBlockTold_toRes [Platform] (v : Bytes) (t : DynamicTable) :
    (decodeHeaderBlockTold v t).toRes = decodeHeaderBlock v t := by
  unfold decodeHeaderBlockTold decodeHeaderBlock
  split
  swap
  · rfl
  rw [← decodeHeaderTold_toRes]
  cases decodeHeaderTold v t with
  | throw e w => rfl
  | ub k => rfl
  | diverge => rfl
  | ok x =>
      obtain ⟨entry, n⟩ := x
      simp only [toRes_ok]
      split
      · rfl
      · split
        · rw [toRes_bind, decodeHeaderBlockTold_toRes (v.drop n) t]
          rfl
        · rfl
termination_by v.length
decreasing_by simp; omega

theorem HeadersFrame.ofRawTold_toRes [Platform] (fh : FrameHeader) (raw : Bytes) (t : DynamicTable) :
    (HeadersFrame.ofRawTold fh raw t).toRes = HeadersFrame.ofRaw fh raw t := by
  unfold HeadersFrame.ofRawTold HeadersFrame.ofRaw
  simp [decodeHeaderBlockTold_toRes]

theorem validatePriorityTold_toRes (p : PriorityOption) :
    (validatePriorityTold p).toRes = validatePriority p := by
  unfold validatePriorityTold validatePriority
  split
  · rfl
  · split <;> rfl

theorem PriorityFrame.newTold_toRes (sid : UInt32) (p : PriorityOption) :
    (PriorityFrame.newTold sid p).toRes = PriorityFrame.new sid p := by
  unfold PriorityFrame.newTold PriorityFrame.new
  simp [validatePriorityTold_toRes]

theorem PriorityFrame.ofRawTold_toRes (fh : FrameHeader) (raw : Bytes) :
    (PriorityFrame.ofRawTold fh raw).toRes = PriorityFrame.ofRaw fh raw := by
  unfold PriorityFrame.ofRawTold PriorityFrame.ofRaw
  simp [validatePriorityTold_toRes]

theorem PushPromiseFrame.ofRawTold_toRes [Platform] (fh : FrameHeader) (raw : Bytes)
    (t : DynamicTable) :
    (PushPromiseFrame.ofRawTold fh raw t).toRes = PushPromiseFrame.ofRaw fh raw t := by
  unfold PushPromiseFrame.ofRawTold PushPromiseFrame.ofRaw
  simp [decodeHeaderBlockTold_toRes]

theorem WindowUpdateFrame.newTold_toRes (sid : UInt32) (r : UInt8) (n : UInt32) :
    (WindowUpdateFrame.newTold sid r n).toRes = WindowUpdateFrame.new sid r n := by
  unfold WindowUpdateFrame.newTold WindowUpdateFrame.new validateWindowSizeTold
  simp

theorem WindowUpdateFrame.ofRawTold_toRes (fh : FrameHeader) (raw : Bytes) :
    (WindowUpdateFrame.ofRawTold fh raw).toRes = WindowUpdateFrame.ofRaw fh raw := by
  unfold WindowUpdateFrame.ofRawTold WindowUpdateFrame.ofRaw validateWindowSizeTold
  simp

theorem ContinuationFrame.ofRawTold_toRes [Platform] (fh : FrameHeader) (raw : Bytes)
    (t : DynamicTable) :
    (ContinuationFrame.ofRawTold fh raw t).toRes = ContinuationFrame.ofRaw fh raw t := by
  unfold ContinuationFrame.ofRawTold ContinuationFrame.ofRaw
  simp [decodeHeaderBlockTold_toRes]

theorem buildFrameTold_toRes [Platform] (fh : FrameHeader) (raw : Bytes) (t : DynamicTable) :
    (buildFrameTold fh raw t).1.toRes = buildFrame fh raw t := by
  unfold buildFrameTold buildFrame
  cases frameTypeOf fh.type with
  | none => rfl
  | some ty =>
      cases ty with
      | headers =>
          show (buildHeadersFrameTold fh raw t).1.toRes = buildHeadersFrame fh raw t
          unfold buildHeadersFrameTold buildHeadersFrame
          rw [← HeadersFrame.ofRawTold_toRes]
          cases HeadersFrame.ofRawTold fh raw t <;> rfl
      | data => simp
      | priority => simp [PriorityFrame.ofRawTold_toRes]
      | rstStream => simp [RstStreamFrame.ofRawTold]
      | settings => simp
      | pushPromise => simp [PushPromiseFrame.ofRawTold_toRes]
      | ping => simp
      | goaway => simp [GoawayFrame.ofRawTold]
      | windowUpdate => simp [WindowUpdateFrame.ofRawTold_toRes]
      | continuation => simp [ContinuationFrame.ofRawTold_toRes]

theorem updateDynamicTableEntryTold_toRes (e : HeaderEntry) (t : DynamicTable) :
    (updateDynamicTableEntryTold e t).toRes = updateDynamicTableEntry e t := by
  unfold updateDynamicTableEntryTold updateDynamicTableEntry
  split
  · simp
  · split <;> simp

theorem updateDynamicTableTold_toRes (block : HeaderBlock) (t : DynamicTable) :
    ((updateDynamicTableTold block t).1.toRes, (updateDynamicTableTold block t).2) =
      updateDynamicTable block t := by
  induction block generalizing t with
  | nil => rfl
  | cons e es ih =>
      unfold updateDynamicTableTold updateDynamicTable
      rw [← updateDynamicTableEntryTold_toRes]
      cases updateDynamicTableEntryTold e t with
      | ok t' => exact ih t'
      | _ => rfl

theorem updateDynamicTableFrameTold_toRes (f : Frame) (t : DynamicTable) :
    ((updateDynamicTableFrameTold f t).1.toRes, (updateDynamicTableFrameTold f t).2) =
      updateDynamicTableFrame f t := by
  unfold updateDynamicTableFrameTold
  split
  · rename_i h
    unfold updateDynamicTableFrame
    rw [h]
    cases f <;> first | exact updateDynamicTableTold_toRes _ _ | rfl
  · rename_i h
    unfold updateDynamicTableFrame
    rw [h]
    cases f <;> first | exact updateDynamicTableTold_toRes _ _ | rfl
  · rename_i h
    unfold updateDynamicTableFrame
    rw [h]
    cases f <;> first | exact updateDynamicTableTold_toRes _ _ | rfl
  · simp

namespace Client

theorem sendFrameTold_toRes [Platform] (c : Client) (f : Frame) :
    ((c.sendFrameTold f).1.toRes, (c.sendFrameTold f).2) = c.sendFrame f := by
  unfold sendFrameTold sendFrame
  cases f.serialize with
  | ok raw => simp [sendRawDataTold]
  | _ => rfl

theorem processFrameTold_toRes [Platform] (c : Client) (fh : FrameHeader) (raw : Bytes) :
    ((c.processFrameTold fh raw).1.toRes, (c.processFrameTold fh raw).2.1) =
      c.processFrame fh raw := by
  unfold processFrameTold processFrame
  rw [← buildFrameTold_toRes]
  obtain ⟨r, said⟩ := buildFrameTold fh raw c.responseTable
  cases r with
  | ok f =>
      simp only [toRes_ok]
      rw [← updateDynamicTableFrameTold_toRes]
      obtain ⟨r, t⟩ := updateDynamicTableFrameTold f c.responseTable
      cases r <;> rfl
  | _ => rfl

theorem receiveFrameTold_toRes [Platform] (c : Client) :
    (c.receiveFrameTold.1.toRes, c.receiveFrameTold.2.1) = c.receiveFrame := by
  unfold receiveFrameTold receiveFrame receiveRawDataTold
  obtain ⟨r, c1⟩ := c.receiveRawData 9
  cases r with
  | ok rawFh =>
      simp only [saying]
      cases buildFrameHeader rawFh with
      | ok fh =>
          simp only
          split
          · obtain ⟨r, c2⟩ := c1.receiveRawData fh.length.toNat
            cases r with
            | ok raw => exact processFrameTold_toRes _ _ _
            | _ => rfl
          · exact processFrameTold_toRes _ _ _
      | _ => rfl
  | _ => rfl

theorem updateRequestDynamicTableTold_toRes (c : Client) (block : HeaderBlock) :
    ((c.updateRequestDynamicTableTold block).1.toRes, (c.updateRequestDynamicTableTold block).2) =
      c.updateRequestDynamicTable block := by
  unfold updateRequestDynamicTableTold updateRequestDynamicTable
  rw [← updateDynamicTableTold_toRes]

end Client

theorem constructTold_toRes (loaded : Bool) (host : Bytes) (port : UInt16) (mode : VerifyMode)
    (env : TlsEnv) : (constructTold mode env).toRes = (construct loaded host port mode env).1 := by
  unfold constructTold construct
  split
  · rfl
  split
  · rfl
  unfold connectBody
  simp only
  repeat' split
  all_goals first | rfl | simp_all

end Mh2c
