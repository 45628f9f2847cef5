/-
C48, C57-C63: receive_frame and the two dynamic tables.
-/
import Verif.Proofs.Session

namespace Mh2c

open Rfc DynamicTable

/-! ## C58 -/

/-- C58. Either exactly one frame (nine plus the announced length octets) was consumed, whatever the
outcome of building it; or the transport failed inside the frame: runtime_error, fewer octets
consumed, no table changed. -/
theorem C58_one_frame [Platform] (c : Client) :
    (frameLength c.conn.incoming ≤ c.conn.incoming.length ∧
      c.receiveFrame.2.conn.incoming = c.conn.incoming.drop (frameLength c.conn.incoming)) ∨
    (c.receiveFrame.1 = .throw .runtimeError ∧
      c.receiveFrame.2.responseTable = c.responseTable ∧
      ∃ lost, lost.length < frameLength c.conn.incoming ∧
        c.conn.incoming = lost ++ c.receiveFrame.2.conn.incoming) := by
  obtain ⟨reads', -, ⟨k, h1, h2, h3⟩ | ⟨fh, -, -, h3, -, h5⟩⟩ := receiveFrame_cases c
  · right
    rw [h3]
    refine ⟨rfl, rfl, c.conn.incoming.take k, ?_, (List.take_append_drop _ _).symm⟩
    rw [List.length_take]
    show _ < 9 + beValue _
    omega
  · left
    rw [h5, processFrame_eq]
    exact ⟨h3, rfl⟩

/-- C58. A frame that is returned was consumed exactly, and it is what parsing these octets against
the response table gives; its type is the announced type. -/
theorem C58_returned [Platform] (c : Client) (f : Frame) (h : c.receiveFrame.1 = .ok f) :
    ∃ octets rest, c.conn.incoming = octets ++ rest ∧ octets.length = frameLength c.conn.incoming ∧
      c.receiveFrame.2.conn.incoming = rest ∧ reparse octets c.responseTable = .ok f ∧
      octets[3]? = some f.header.type := by
  obtain ⟨reads', -, ⟨k, h1, h2, h3⟩ | ⟨fh, h1, h2, h3, -, h5⟩⟩ := receiveFrame_cases c
  · rw [h3] at h; cases h
  · rw [h5, processFrame_eq] at h
    have hb : buildFrame fh ((c.conn.incoming.drop 9).take (beValue (c.conn.incoming.take 3)))
        c.responseTable = .ok f := by
      change (processTable _ _ c.responseTable).1 = _ at h
      unfold processTable at h
      cases hb : buildFrame fh ((c.conn.incoming.drop 9).take (beValue (c.conn.incoming.take 3)))
        c.responseTable with
      | ok g =>
          rw [hb] at h
          simp only at h
          rcases hu : updateDynamicTableFrame g c.responseTable with ⟨_ | _ | _ | _, t'⟩ <;>
            rw [hu] at h
          · exact h
          · cases h
          · cases h
          · cases h
      | throw e => rw [hb] at h; cases h
      | ub k => rw [hb] at h; cases h
      | diverge => rw [hb] at h; cases h
    refine ⟨c.conn.incoming.take (9 + beValue (c.conn.incoming.take 3)),
      c.conn.incoming.drop (9 + beValue (c.conn.incoming.take 3)),
      (List.take_append_drop _ _).symm, ?_, ?_, ?_, ?_⟩
    · rw [List.length_take]
      show _ = 9 + beValue _
      omega
    · rw [h5, processFrame_eq]; rfl
    · unfold reparse
      rw [List.take_take, Nat.min_eq_left (by omega), h1, Res.ok_bind, List.drop_take,
        Nat.add_sub_cancel_left]
      exact hb
    · have ht := (built_of_ok hb).type
      have h9 : 9 ≤ (c.conn.incoming.take 9).length := by rw [List.length_take]; omega
      rw [buildFrameHeader_eq _ h9] at h1
      obtain rfl := (Res.ok.inj h1).symm
      rw [ht, List.getElem?_take_of_lt (by omega), List.getElem?_eq_getElem (by omega)]
      simp

attribute [local instance] x86 in
example : let c := Client.new ⟨[0, 0, 2, 0, 1, 0, 0, 0, 5, 104, 105, 77], [], [4, 9, 1, 5], []⟩
    c.receiveFrame = (.ok (.data ⟨⟨2, 0, 1, 0, 5⟩, [104, 105]⟩), Client.new ⟨[77], [], [], []⟩) ∧
    frameLength c.conn.incoming = 11 := by decide +kernel

/-! ## C48 -/

/-- C48. An unknown frame type is reported with out_of_range; exactly the frame was consumed and the
tables are unchanged. -/
theorem C48_unknown_type [Platform] (c : Client) (type : UInt8)
    (ht : c.conn.incoming[3]? = some type) (h9 : 9 < type.toNat)
    (ha : frameLength c.conn.incoming ≤ c.conn.incoming.length)
    (hw : Willing c.conn.reads (frameLength c.conn.incoming)) :
    c.receiveFrame.1 = .throw .outOfRange ∧
      c.receiveFrame.2.conn.incoming = c.conn.incoming.drop (frameLength c.conn.incoming) ∧
      c.receiveFrame.2.requestTable = c.requestTable ∧
      c.receiveFrame.2.responseTable = c.responseTable := by
  obtain ⟨fh, j, hj, h1, h2, h3⟩ := receiveFrame_progress c ha hw.1 hw.2
  have hlen : 9 ≤ c.conn.incoming.length := by
    unfold frameLength at ha; omega
  have hlen9 : 9 ≤ (c.conn.incoming.take 9).length := by rw [List.length_take]; omega
  rw [buildFrameHeader_eq _ hlen9] at h1
  obtain rfl := (Res.ok.inj h1).symm
  have hty : (c.conn.incoming.take 9)[3]'(by rw [List.length_take]; omega) = type := by
    rw [List.getElem?_eq_getElem (by omega)] at ht
    injection ht with ht
    rw [← ht]
    simp
  rw [h3, processFrame_eq]
  unfold processTable
  rw [buildFrame_unknown _ _ _ (by simp only; rw [hty]; exact h9)]
  exact ⟨rfl, rfl, rfl, rfl⟩

attribute [local instance] x86 in
example : let c := Client.new ⟨[0, 0, 2, 0x0a, 1, 0, 0, 0, 5, 104, 105, 77], [], List.replicate 11 1, []⟩
    c.receiveFrame = (.throw .outOfRange, Client.new ⟨[77], [], [], []⟩) ∧
      Willing c.conn.reads (frameLength c.conn.incoming) := by decide +kernel

/-! ## C57 -/

/-- C57. Two runs on the same stream from the same response table that both return, return the same
frame, and leave the same response table and the same rest of the stream. -/
theorem C57_same_result [Platform] (c1 c2 : Client) (hi : c1.conn.incoming = c2.conn.incoming)
    (ht : c1.responseTable = c2.responseTable) (f1 f2 : Frame) (h1 : c1.receiveFrame.1 = .ok f1)
    (h2 : c2.receiveFrame.1 = .ok f2) :
    f1 = f2 ∧ c1.receiveFrame.2.responseTable = c2.receiveFrame.2.responseTable ∧
      c1.receiveFrame.2.conn.incoming = c2.receiveFrame.2.conn.incoming := by
  obtain ⟨r1, -, ⟨k, -, -, e1⟩ | ⟨fh1, g1, -, -, -, e1⟩⟩ := receiveFrame_cases c1
  · rw [e1] at h1; cases h1
  obtain ⟨r2, -, ⟨k, -, -, e2⟩ | ⟨fh2, g2, -, -, -, e2⟩⟩ := receiveFrame_cases c2
  · rw [e2] at h2; cases h2
  rw [hi, g2] at g1
  obtain rfl := (Res.ok.inj g1).symm
  rw [processFrame_eq] at e1 e2
  rw [e1] at h1 ⊢
  rw [e2] at h2 ⊢
  rw [hi] at h1 ⊢
  simp only [Client.consumed] at h1 h2 ⊢
  rw [ht] at h1 ⊢
  rw [h1] at h2
  exact ⟨Res.ok.inj h2, rfl, by rw [hi]⟩

/-- C57. Under transports that make progress the whole outcome is the same, exceptions included:
only the stream and the response table matter. -/
theorem C57_same_outcome [Platform] (c1 c2 : Client) (hi : c1.conn.incoming = c2.conn.incoming)
    (ht : c1.responseTable = c2.responseTable)
    (ha : frameLength c1.conn.incoming ≤ c1.conn.incoming.length)
    (hw1 : Willing c1.conn.reads (frameLength c1.conn.incoming))
    (hw2 : Willing c2.conn.reads (frameLength c2.conn.incoming)) :
    c1.receiveFrame.1 = c2.receiveFrame.1 ∧
      c1.receiveFrame.2.responseTable = c2.receiveFrame.2.responseTable ∧
      c1.receiveFrame.2.conn.incoming = c2.receiveFrame.2.conn.incoming := by
  obtain ⟨fh1, j1, -, g1, -, e1⟩ := receiveFrame_progress c1 ha hw1.1 hw1.2
  rw [hi] at ha
  obtain ⟨fh2, j2, -, g2, -, e2⟩ := receiveFrame_progress c2 ha hw2.1 hw2.2
  rw [hi, g2] at g1
  obtain rfl := (Res.ok.inj g1).symm
  rw [processFrame_eq] at e1 e2
  rw [e1, e2, hi]
  simp only [Client.consumed]
  rw [ht, hi]
  exact ⟨rfl, rfl, rfl⟩

/-- C57. If the frame is available, a transport that makes progress gets it: the outcome is that of
parsing its octets, except that the table update can still fail. -/
theorem C57_progress [Platform] (c : Client)
    (ha : frameLength c.conn.incoming ≤ c.conn.incoming.length)
    (hw : Willing c.conn.reads (frameLength c.conn.incoming)) :
    c.receiveFrame.2.conn.incoming = c.conn.incoming.drop (frameLength c.conn.incoming) ∧
    match reparse (c.conn.incoming.take (frameLength c.conn.incoming)) c.responseTable with
    | .ok f => c.receiveFrame.1 = .ok f ∨ c.receiveFrame.1.IsUb
    | .throw e => c.receiveFrame.1 = .throw e
    | .ub k => c.receiveFrame.1 = .ub k
    | .diverge => c.receiveFrame.1 = .diverge := by
  obtain ⟨fh, j, hj, h1, h2, h3⟩ := receiveFrame_progress c ha hw.1 hw.2
  have hre : reparse (c.conn.incoming.take (frameLength c.conn.incoming)) c.responseTable =
      buildFrame fh ((c.conn.incoming.drop 9).take (beValue (c.conn.incoming.take 3)))
        c.responseTable := by
    unfold reparse
    have : frameLength c.conn.incoming = 9 + beValue (c.conn.incoming.take 3) := rfl
    rw [List.take_take, Nat.min_eq_left (by omega), h1, Res.ok_bind, List.drop_take, this,
      Nat.add_sub_cancel_left]
  rw [hre, h3, processFrame_eq]
  refine ⟨rfl, ?_⟩
  show match buildFrame fh _ c.responseTable with
    | .ok f => (processTable fh _ c.responseTable).1 = .ok f ∨
        (processTable fh _ c.responseTable).1.IsUb
    | .throw e => (processTable fh _ c.responseTable).1 = .throw e
    | .ub k => (processTable fh _ c.responseTable).1 = .ub k
    | .diverge => (processTable fh _ c.responseTable).1 = .diverge
  unfold processTable
  cases hb : buildFrame fh ((c.conn.incoming.drop 9).take (beValue (c.conn.incoming.take 3)))
      c.responseTable with
  | throw e => rfl
  | ub k => rfl
  | diverge => rfl
  | ok f =>
      simp only
      have hnt := updateFrame_ne_throw (built_of_ok hb)
      have hnd : (updateDynamicTableFrame f c.responseTable).1 ≠ .diverge :=
        updateFrame_ne_diverge f c.responseTable
      rcases hu : updateDynamicTableFrame f c.responseTable with ⟨_ | e | k | _, t'⟩
      · exact Or.inl rfl
      · exact absurd (by rw [hu]) (hnt e)
      · exact Or.inr ⟨k, rfl⟩
      · exact absurd (by rw [hu]) hnd

attribute [local instance] x86 in
example : let s : Bytes := [0, 0, 2, 0, 1, 0, 0, 0, 5, 104, 105, 77]
    let c1 := Client.new ⟨s, [], List.replicate 11 1, []⟩
    let c2 := Client.new ⟨s, [], List.replicate 11 6, []⟩
    Willing c1.conn.reads (frameLength s) ∧ Willing c2.conn.reads (frameLength s) ∧
      c1.receiveFrame.1 = c2.receiveFrame.1 ∧ c1.receiveFrame.1.Safe := by decide +kernel

/-! ## C59 -/

/-- C59. receive_frame changes neither the request table nor anything that was sent. -/
theorem C59_receive [Platform] (c : Client) :
    c.receiveFrame.2.requestTable = c.requestTable ∧
      c.receiveFrame.2.conn.sent = c.conn.sent ∧ c.receiveFrame.2.conn.writes = c.conn.writes := by
  obtain ⟨reads', -, ⟨k, -, -, h⟩ | ⟨fh, -, -, -, -, h⟩⟩ := receiveFrame_cases c
  · rw [h]; exact ⟨rfl, rfl, rfl⟩
  · rw [h, processFrame_eq]; exact ⟨rfl, rfl, rfl⟩

/-- C59. Sending a frame changes no table and consumes no input. -/
theorem C59_send [Platform] (c : Client) (f : Frame) :
    (c.sendFrame f).2.requestTable = c.requestTable ∧
      (c.sendFrame f).2.responseTable = c.responseTable ∧
      (c.sendFrame f).2.conn.incoming = c.conn.incoming ∧
      (c.sendFrame f).2.conn.reads = c.conn.reads := by
  unfold Client.sendFrame
  cases f.serialize with
  | ok raw => exact ⟨rfl, rfl, rfl, rfl⟩
  | throw e => exact ⟨rfl, rfl, rfl, rfl⟩
  | ub k => exact ⟨rfl, rfl, rfl, rfl⟩
  | diverge => exact ⟨rfl, rfl, rfl, rfl⟩

/-- C59. The request-table operations change only the request table. -/
theorem C59_request_table (c : Client) (block : HeaderBlock) (n : Nat) :
    (∃ t, (c.updateRequestDynamicTable block).2 = { c with requestTable := t }) ∧
      ∃ t, (c.updateRequestTableSize n).2 = { c with requestTable := t } := by
  refine ⟨⟨_, rfl⟩, ?_⟩
  unfold Client.updateRequestTableSize
  cases h : c.requestTable.updateTableSize n with
  | ok t => exact ⟨t, rfl⟩
  | throw e => exact ⟨c.requestTable, rfl⟩
  | ub k => exact ⟨c.requestTable, rfl⟩
  | diverge => exact ⟨c.requestTable, rfl⟩

/-- C59. Over any history: sending-side operations leave the response table and the input alone,
receiving-side operations leave the request table and the output alone. -/
theorem C59_histories [Platform] (c c' : Client) (ops : List Op) (h : History c ops c') :
    ((∀ op ∈ ops, op.Sending) →
      c'.responseTable = c.responseTable ∧ c'.conn.incoming = c.conn.incoming) ∧
    ((∀ op ∈ ops, ¬ op.Sending) →
      c'.requestTable = c.requestTable ∧ c'.conn.sent = c.conn.sent) := by
  induction h with
  | nil c => exact ⟨fun _ => ⟨rfl, rfl⟩, fun _ => ⟨rfl, rfl⟩⟩
  | cons c op ops c' hs h ih =>
      have step : (op.Sending → (op.run c).2.responseTable = c.responseTable ∧
            (op.run c).2.conn.incoming = c.conn.incoming) ∧
          (¬ op.Sending → (op.run c).2.requestTable = c.requestTable ∧
            (op.run c).2.conn.sent = c.conn.sent) := by
        cases op with
        | sendPreface => exact ⟨fun _ => ⟨rfl, rfl⟩, fun h => absurd trivial h⟩
        | sendRaw data => exact ⟨fun _ => ⟨rfl, rfl⟩, fun h => absurd trivial h⟩
        | receiveRaw n => exact ⟨fun h => h.elim, fun _ => ⟨rfl, rfl⟩⟩
        | sendFrame f =>
            have := C59_send c f
            exact ⟨fun _ => ⟨this.2.1, this.2.2.1⟩, fun h => absurd trivial h⟩
        | receiveFrame =>
            have := C59_receive c
            exact ⟨fun h => h.elim, fun _ => ⟨this.1, this.2.1⟩⟩
        | updateRequestBlock b => exact ⟨fun _ => ⟨rfl, rfl⟩, fun h => absurd trivial h⟩
        | updateRequestSize n =>
            obtain ⟨t, ht⟩ := (C59_request_table c [] n).2
            refine ⟨fun _ => ?_, fun h => absurd trivial h⟩
            show (c.updateRequestTableSize n).2.responseTable = _ ∧ _
            rw [show (Op.run (.updateRequestSize n) c).2 = _ from ht, ht]
            exact ⟨rfl, rfl⟩
      constructor
      · intro hall
        have h1 := step.1 (hall op (by simp))
        have h2 := ih.1 (fun o ho => hall o (by simp [ho]))
        exact ⟨h2.1.trans h1.1, h2.2.trans h1.2⟩
      · intro hall
        have h1 := step.2 (hall op (by simp))
        have h2 := ih.2 (fun o ho => hall o (by simp [ho]))
        exact ⟨h2.1.trans h1.1, h2.2.trans h1.2⟩

attribute [local instance] x86 in
example : let c := Client.new ⟨[1, 2, 3], [], [1, 1], [100]⟩
    History c [.updateRequestSize 100, .sendPreface, .receiveRaw 2]
      ⟨⟨[3], bstr "PRI * HTTP/2.0\r\n\r\nSM\r\n\r\n", [], []⟩, ⟨[], 0, 100⟩, ⟨[], 0, 4096⟩⟩ := by
  refine .cons _ _ _ _ (by decide +kernel) (.cons _ _ _ _ (by decide +kernel)
    (.cons _ _ _ _ (by decide +kernel) ?_))
  have : (Op.run (.receiveRaw 2) (Op.run .sendPreface (Op.run (.updateRequestSize 100)
      (Client.new ⟨[1, 2, 3], [], [1, 1], [100]⟩)).2).2).2 =
      ⟨⟨[3], bstr "PRI * HTTP/2.0\r\n\r\nSM\r\n\r\n", [], []⟩, ⟨[], 0, 100⟩, ⟨[], 0, 4096⟩⟩ := by
    decide +kernel
  exact this ▸ .nil _

/-! ## C60 -/

/-- C60. A receive_frame that throws, for whatever reason, leaves both tables as they were. -/
theorem C60_throw_keeps_tables [Platform] (c : Client) (e : Exc)
    (h : c.receiveFrame.1 = .throw e) :
    c.receiveFrame.2.requestTable = c.requestTable ∧
      c.receiveFrame.2.responseTable = c.responseTable := by
  refine ⟨(C59_receive c).1, ?_⟩
  obtain ⟨reads', -, ⟨k, -, -, h'⟩ | ⟨fh, -, -, -, -, h'⟩⟩ := receiveFrame_cases c
  · rw [h']; rfl
  · rw [h', processFrame_eq] at h ⊢
    exact (processTable_throw h).1

/-- A stream with a PUSH_PROMISE frame that first inserts a header and then refers to an index that
does not exist. -/
def badPush : Bytes :=
  [0, 0, 11, 5, 0, 0, 0, 0, 5] ++ [0, 0, 0, 2] ++ [0x40, 1, 97, 1, 98] ++ [0xff, 0]

attribute [local instance] x86 in
example : let c := Client.new ⟨badPush, [], [9, 20], []⟩
    c.receiveFrame = (.throw .outOfRange, Client.new ⟨[], [], [], []⟩) := by decide +kernel

/-! ## C61 -/

/-- C61. build_frame never throws for HEADERS. -/
theorem C61_build_never_throws [Platform] (fh : FrameHeader) (raw : Bytes) (table : DynamicTable)
    (h : fh.type = 1) (e : Exc) : buildFrame fh raw table ≠ .throw e := by
  rw [buildFrame_headers _ _ _ h, buildHeadersFrame]
  cases HeadersFrame.ofRaw fh raw table <;> simp

/-- C61. If decoding throws, build_frame delivers header and payload as they came. -/
theorem C61_build_raw [Platform] (fh : FrameHeader) (raw : Bytes) (table : DynamicTable)
    (h : fh.type = 1) (e : Exc) (hd : HeadersFrame.ofRaw fh raw table = .throw e) :
    buildFrame fh raw table = .ok (.raw ⟨fh, raw⟩) := by
  rw [buildFrame_headers _ _ _ h, buildHeadersFrame, hd]

/-- C61, negation of the second half. receive_frame never delivers a raw frame. -/
theorem C61_raw_never_delivered_violated [Platform] (c : Client) (f : RawFrame) :
    c.receiveFrame.1 ≠ .ok (.raw f) := by
  intro h
  obtain ⟨reads', -, ⟨k, -, -, h'⟩ | ⟨fh, -, -, -, -, h'⟩⟩ := receiveFrame_cases c
  · rw [h'] at h; cases h
  · rw [h', processFrame_eq] at h
    change (processTable fh _ c.responseTable).1 = _ at h
    unfold processTable at h
    split at h
    · rename_i g hb
      have hu := updateFrame_built (built_of_ok hb)
      have : g = .raw f := by
        rcases hu' : updateDynamicTableFrame g c.responseTable with ⟨_ | _ | _ | _, t'⟩ <;>
          rw [hu'] at h
        · exact Res.ok.inj h
        · cases h
        · cases h
        · cases h
      subst this
      rw [hu] at h
      cases h
    · cases h
    · cases h
    · cases h

/-- C61, negation of the second half. For a HEADERS frame that is delivered by the transport,
receive_frame dereferences a null pointer exactly if decoding the frame throws. -/
theorem C61_null_dereference_violated [Platform] (c : Client)
    (ht : c.conn.incoming[3]? = some 1)
    (ha : frameLength c.conn.incoming ≤ c.conn.incoming.length)
    (hw : Willing c.conn.reads (frameLength c.conn.incoming)) :
    c.receiveFrame.1 = .ub .nullDeref ↔
      ∃ fh e, buildFrameHeader c.conn.incoming = .ok fh ∧
        HeadersFrame.ofRaw fh ((c.conn.incoming.take (frameLength c.conn.incoming)).drop 9)
          c.responseTable = .throw e := by
  obtain ⟨fh, j, hj, h1, h2, h3⟩ := receiveFrame_progress c ha hw.1 hw.2
  have hlen : 9 ≤ c.conn.incoming.length := by unfold frameLength at ha; omega
  have hdrop : (c.conn.incoming.take (frameLength c.conn.incoming)).drop 9 =
      (c.conn.incoming.drop 9).take (beValue (c.conn.incoming.take 3)) := by
    have : frameLength c.conn.incoming = 9 + beValue (c.conn.incoming.take 3) := rfl
    rw [List.drop_take, this, Nat.add_sub_cancel_left]
  have hfh : buildFrameHeader c.conn.incoming = .ok fh := by
    rw [← h1, buildFrameHeader_eq _ hlen, buildFrameHeader_eq _ (by rw [List.length_take]; omega)]
    simp [List.take_take, List.drop_take]
  have hty : fh.type = 1 := by
    rw [buildFrameHeader_eq _ hlen] at hfh
    obtain rfl := (Res.ok.inj hfh).symm
    rw [List.getElem?_eq_getElem (by omega)] at ht
    exact Option.some.inj ht
  rw [hdrop, hfh, h3, processFrame_eq]
  change (processTable fh _ c.responseTable).1 = _ ↔ _
  unfold processTable
  rw [buildFrame_headers _ _ _ hty, buildHeadersFrame]
  have hnn := noNull_headers_ofRaw fh ((c.conn.incoming.drop 9).take
    (beValue (c.conn.incoming.take 3))) c.responseTable
  cases hof : HeadersFrame.ofRaw fh ((c.conn.incoming.drop 9).take
      (beValue (c.conn.incoming.take 3))) c.responseTable with
  | throw e =>
      have : updateDynamicTableFrame (.raw ⟨fh, (c.conn.incoming.drop 9).take
          (beValue (c.conn.incoming.take 3))⟩) c.responseTable =
          (.ub .nullDeref, c.responseTable) :=
        updateFrame_built (built_of_ok (C61_build_raw _ _ _ hty e hof))
      simp only
      rw [this]
      simp only [true_iff]
      exact ⟨fh, e, rfl, hof⟩
  | ub k =>
      rw [hof] at hnn
      simp only [Res.ub.injEq]
      constructor
      · rintro rfl; exact absurd rfl hnn
      · rintro ⟨fh', e, he, hc⟩
        obtain rfl := Res.ok.inj he
        rw [hof] at hc; cases hc
  | diverge =>
      simp only [reduceCtorEq, false_iff]
      rintro ⟨fh', e, he, hc⟩
      obtain rfl := Res.ok.inj he
      rw [hof] at hc; cases hc
  | ok f =>
      have hno : ¬ ∃ fh' e, Res.ok fh = Res.ok fh' ∧ HeadersFrame.ofRaw fh'
          ((c.conn.incoming.drop 9).take (beValue (c.conn.incoming.take 3))) c.responseTable =
          .throw e := by
        rintro ⟨fh', e, he, hc⟩
        obtain rfl := Res.ok.inj he
        rw [hof] at hc; cases hc
      simp only [hno, iff_false]
      have hu : updateDynamicTableFrame (.headers f) c.responseTable =
          updateDynamicTable f.headerBlock c.responseTable :=
        updateFrame_built (.headers hty f hof)
      have hn := noNull_updateDynamicTable f.headerBlock c.responseTable
      rw [hu]
      rcases hv : updateDynamicTable f.headerBlock c.responseTable with ⟨_ | _ | k | _, t'⟩ <;>
        rw [hv] at hn <;> simp
      rintro rfl
      exact hn rfl

/-- A HEADERS frame whose only octet refers to an empty dynamic table. -/
def badHeaders : Bytes := [0, 0, 1, 1, 4, 0, 0, 0, 1, 0xbe]

attribute [local instance] x86 in
example : let c := Client.new ⟨badHeaders, [], List.replicate 10 3, []⟩
    Willing c.conn.reads (frameLength c.conn.incoming) ∧
      c.receiveFrame.1 = .ub .nullDeref ∧
      reparse badHeaders c.responseTable = .ok (.raw ⟨⟨1, 1, 4, 0, 1⟩, [0xbe]⟩) := by decide +kernel

/-! ## C62 -/

/-- C62, negation. Every SETTINGS frame announcing a table size `v` resizes the response table to
`v` (evicting entries) and leaves the request table alone. -/
theorem C62_header_table_size_violated [Platform] (c : Client) (flags : UInt8) (streamId : UInt32)
    (settings : List (UInt16 × UInt32)) (v : UInt32) (rest : Bytes)
    (hin : c.conn.incoming = frameOctets 4 flags streamId.toNat (settingsOctets settings) ++ rest)
    (hs : streamId.toNat < 2 ^ 31) (hl : (settingsOctets settings).length < 2 ^ 24)
    (hv : settings.lookup 1 = some v) (hok : Accounted c.responseTable)
    (hmax : c.responseTable.maxTableSize < 2 ^ 63)
    (hw : Willing c.conn.reads (frameLength c.conn.incoming)) :
    c.receiveFrame.1.Returns ∧ c.receiveFrame.2.requestTable = c.requestTable ∧
      c.receiveFrame.2.responseTable.maxTableSize = v.toNat ∧
      c.receiveFrame.2.responseTable.entries = takeFit v.toNat c.responseTable.entries := by
  obtain ⟨hlen, f1, f2, f3, f4⟩ := front_frame 4 flags streamId (settingsOctets settings) rest hl hs
  have hfl : frameLength c.conn.incoming = 9 + (settingsOctets settings).length := by
    rw [frameLength, announced, hin, f1]
  obtain ⟨fh, j, -, g1, -, g3⟩ := receiveFrame_progress c
    (by rw [hin, f1, List.length_append, hlen]; omega) hw.1 hw.2
  rw [hin, f2] at g1
  obtain rfl := Res.ok.inj g1
  have hm : IsMap (settings.foldl (fun m p => SfPayload.insert p.1 p.2 m) []) :=
    foldl_isMap settings (by simp [IsMap])
  have hlook : (settings.foldl (fun m p => SfPayload.insert p.1 p.2 m) []).lookup 1 = some v := by
    rw [foldl_lookup settings (by simp [IsMap]), hv]; rfl
  have hp : processTable ⟨castToFhLength (settingsOctets settings).length, 4, flags, 0, streamId⟩
      (settingsOctets settings) c.responseTable =
      (.ok (.settings (SettingsFrame.new flags streamId
        (settings.foldl (fun m p => SfPayload.insert p.1 p.2 m) []))),
       ⟨takeFit v.toNat c.responseTable.entries,
        total (takeFit v.toNat c.responseTable.entries), v.toNat⟩) := by
    unfold processTable
    have hb : buildFrame ⟨castToFhLength (settingsOctets settings).length, 4, flags, 0, streamId⟩
        (settingsOctets settings) c.responseTable = .ok (.settings (SettingsFrame.new flags streamId
        (settings.foldl (fun m p => SfPayload.insert p.1 p.2 m) []))) := by
      rw [buildFrame_settings _ _ _ rfl, buildSettingsFrame, parseSettings_ok]
      rfl
    rw [hb]
    simp only
    rw [updateFrame_built (built_of_ok hb)]
    simp only [SettingsFrame.new, hlook]
    rw [updateTableSize_eq ⟨hok.1, hok.2, hmax⟩]
  have hraw : (c.conn.incoming.drop 9).take (beValue (c.conn.incoming.take 3)) =
      settingsOctets settings := by rw [hin, f1, f3]
  rw [g3, processFrame_eq, hraw]
  change (processTable _ _ c.responseTable).1.Returns ∧ _ ∧
    (processTable _ _ c.responseTable).2.maxTableSize = _ ∧
    (processTable _ _ c.responseTable).2.entries = _
  rw [hp]
  exact ⟨⟨_, rfl⟩, rfl, rfl, rfl⟩

attribute [local instance] x86 in
example : let c : Client := ⟨⟨frameOctets 4 0 0 (settingsOctets [(1, 100), (1, 5)]) ++ [7], [],
      List.replicate 21 1, []⟩, ⟨[], 0, 4096⟩,
      ⟨[(bstr "a", bstr "b"), (bstr "c", bstr "d"), (bstr "e", bstr "f")], 102, 4096⟩⟩
    Willing c.conn.reads (frameLength c.conn.incoming) ∧
      c.receiveFrame.2 = ⟨⟨[7], [], [], []⟩, ⟨[], 0, 4096⟩,
        ⟨[(bstr "a", bstr "b"), (bstr "c", bstr "d")], 68, 100⟩⟩ := by decide +kernel

/-! ## C63 -/

theorem history_step [Platform] {c : Client} {op : Op} (hop : op.Small) (h1 : c.requestTable.Inv)
    (h2 : c.responseTable.Inv) (h3 : c.responseTable.maxTableSize ≤ 2 ^ 32) :
    (op.run c).2.requestTable.Inv ∧ (op.run c).2.responseTable.Inv ∧
      (op.run c).2.responseTable.maxTableSize ≤ 2 ^ 32 := by
  cases op with
  | sendPreface => exact ⟨h1, h2, h3⟩
  | sendRaw data => exact ⟨h1, h2, h3⟩
  | receiveRaw n => exact ⟨h1, h2, h3⟩
  | sendFrame f =>
      obtain ⟨e1, e2, -, -⟩ := C59_send c f
      show (c.sendFrame f).2.requestTable.Inv ∧ (c.sendFrame f).2.responseTable.Inv ∧
        (c.sendFrame f).2.responseTable.maxTableSize ≤ _
      rw [e1, e2]
      exact ⟨h1, h2, h3⟩
  | receiveFrame =>
      show c.receiveFrame.2.requestTable.Inv ∧ c.receiveFrame.2.responseTable.Inv ∧
        c.receiveFrame.2.responseTable.maxTableSize ≤ _
      rw [(C59_receive c).1]
      refine ⟨h1, ?_⟩
      obtain ⟨reads', -, ⟨k, -, -, h'⟩ | ⟨fh, -, -, -, -, h'⟩⟩ := receiveFrame_cases c
      · rw [h']; exact ⟨h2, h3⟩
      · rw [h', processFrame_eq]
        refine processTable_inv ?_ h2 h3
        have := take_beValue_lt (raw := c.conn.incoming) 3
        rw [List.length_take]
        omega
  | updateRequestBlock b =>
      obtain ⟨i1, -⟩ := updateDynamicTable_inv (b := max c.requestTable.maxTableSize (2 ^ 63))
        h1 hop (le_max_left _ _) (fun e he n hn => by
          have := (hop e he).2 n hn
          exact le_trans (le_of_lt this) (le_max_right _ _))
      exact ⟨i1, h2, h3⟩
  | updateRequestSize n =>
      obtain ⟨t, ht, hi, -⟩ := updateTableSize_refines h1 (show n < 2 ^ 63 from hop)
      show (c.updateRequestTableSize n).2.requestTable.Inv ∧
        (c.updateRequestTableSize n).2.responseTable.Inv ∧ _
      unfold Client.updateRequestTableSize
      rw [ht]
      refine ⟨hi, h2, ?_⟩
      show (c.updateRequestTableSize n).2.responseTable.maxTableSize ≤ _
      unfold Client.updateRequestTableSize
      rw [ht]
      exact h3

theorem history_inv [Platform] {c c' : Client} {ops : List Op} (h : History c ops c') :
    (∀ op ∈ ops, op.Small) → c.requestTable.Inv → c.responseTable.Inv →
      c.responseTable.maxTableSize ≤ 2 ^ 32 →
      c'.requestTable.Inv ∧ c'.responseTable.Inv ∧ c'.responseTable.maxTableSize ≤ 2 ^ 32 := by
  induction h with
  | nil c => intro _ h1 h2 h3; exact ⟨h1, h2, h3⟩
  | cons c op ops c' hs _ ih =>
      intro hall h1 h2 h3
      have step := history_step (hall op (by simp)) h1 h2 h3
      exact ih (fun o ho => hall o (by simp [ho])) step.1 step.2.1 step.2.2

/-- C63. From a fresh client, after every history (any operations, inputs, schedules, exceptions on
the way) both tables satisfy the size accounting. -/
theorem C63_accounting [Platform] (conn : Conn) (ops : List Op) (c : Client)
    (hsmall : ∀ op ∈ ops, op.Small) (h : History (Client.new conn) ops c) :
    Accounted c.requestTable ∧ Accounted c.responseTable := by
  obtain ⟨k1, k2, -⟩ := history_inv h hsmall inv_default inv_default
    (by show 4096 ≤ _; norm_num)
  exact ⟨⟨k1.size, k1.le⟩, ⟨k2.size, k2.le⟩⟩

/-- A stream with a SETTINGS frame (table size 100) and a HEADERS frame inserting a header. -/
def twoFrames : Bytes :=
  frameOctets 4 0 0 (settingsOctets [(1, 100)]) ++ frameOctets 1 4 1 [0x40, 1, 97, 1, 98]

attribute [local instance] x86 in
example : let c := Client.new ⟨twoFrames, [], [9, 9, 9, 9], []⟩
    ∃ c', History c [.receiveFrame, .updateRequestBlock [⟨.incrementalIndexing, .header (bstr "x", bstr "yz")⟩],
      .receiveFrame] c' ∧ c'.responseTable = ⟨[(bstr "a", bstr "b")], 34, 100⟩ ∧
      c'.requestTable = ⟨[(bstr "x", bstr "yz")], 35, 4096⟩ := by
  refine ⟨_, .cons _ _ _ _ (by decide +kernel) (.cons _ _ _ _ (by decide +kernel)
    (.cons _ _ _ _ (by decide +kernel) (.nil _))), by decide +kernel, by decide +kernel⟩

end Mh2c
