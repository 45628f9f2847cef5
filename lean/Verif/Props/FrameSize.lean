/-
C103: data cannot be read as frames. C104: the limits on the size of frames.
-/
import Verif.Props.TableLimit
import Verif.Props.Wire

namespace Mh2c

open Rfc

/-! ## C103 -/

/-- C103, the part that holds: data of fewer than 2^24 octets, sent in a DATA frame, is read as the
data of one DATA frame, whatever it contains: there is no other way to split the octets into frames.
Missing: longer data, see below. -/
theorem C103_one_frame_partial [Platform] (c c' : Client) (flags : UInt8) (sid : UInt32)
    (payload : Bytes) (hs : sid.toNat < 2 ^ 31) (hp : payload.length < 2 ^ 24)
    (h : c.sendFrame (.data (DataFrame.new flags sid payload)) = (.ok (), c')) :
    ∃ wire, c'.conn.sent = c.conn.sent ++ wire ∧ wire = frameOctets 0 flags sid.toNat payload ∧
      ∀ (type flags' : UInt8) (sid' : UInt32) (payload' rest rest' : Bytes),
        payload'.length < 2 ^ 24 → sid'.toNat < 2 ^ 31 →
        wire ++ rest = frameOctets type flags' sid'.toNat payload' ++ rest' →
        type = 0 ∧ flags' = flags ∧ sid' = sid ∧ payload' = payload ∧ rest' = rest := by
  have hser := (C36_data_round_trip flags sid payload .default hs hp).1
  refine ⟨_, ?_, rfl, ?_⟩
  · have h1 : c.sendFrame (.data (DataFrame.new flags sid payload)) =
        c.sendRawData (frameOctets 0 flags sid.toNat payload) := by
      unfold Client.sendFrame Frame.serialize
      simp only
      rw [hser]
    obtain ⟨sent, writes, e1, -, ⟨-, e2⟩ | ⟨e2, -⟩⟩ :=
      C55_send c (frameOctets 0 flags sid.toNat payload)
    · rw [← h1, h] at e1
      simp only at e1
      rw [e1, ← e2]
    · rw [← h1, h] at e2
      cases e2
  · intro type flags' sid' payload' rest rest' hp' hs' he
    obtain ⟨rfl, rfl, rfl, rfl, rfl⟩ := frameOctets_inj hp hp' hs hs' he
    exact ⟨rfl, rfl, rfl, rfl, rfl⟩

/-- Non-vacuity of C103: data that looks like a frame is sent and stays data. -/
example [P : Platform] :
    let c := Client.new ⟨[], [], [], [5, 100]⟩
    (c.sendFrame (.data (DataFrame.new 1 5 (frameOctets 3 0 1 [0, 0, 0, 8])))).1 = .ok () ∧
    (c.sendFrame (.data (DataFrame.new 1 5 (frameOctets 3 0 1 [0, 0, 0, 8])))).2.conn.sent =
      [0, 0, 13, 0, 1, 0, 0, 0, 5] ++ [0, 0, 4, 3, 0, 0, 0, 0, 1, 0, 0, 0, 8] := by
  rcases P with ⟨_ | _, _ | _⟩ <;> decide +kernel

theorem receive_data [Platform] (c : Client) (flags : UInt8) (sid : UInt32)
    (payload rest : Bytes) (hs : sid.toNat < 2 ^ 31) (h2 : payload.length < 2 ^ 24)
    (hi : c.conn.incoming = frameOctets 0 flags sid.toNat payload ++ rest)
    (hw : Willing c.conn.reads (9 + payload.length)) :
    c.receiveFrame.1 = .ok (.data (DataFrame.new flags sid payload)) ∧
      c.receiveFrame.2.conn.incoming = rest := by
  obtain ⟨f1, f2, f3, f4, f5⟩ := front_frame 0 flags sid payload rest h2 hs
  obtain ⟨fh, j, -, e1, -, e2⟩ := receiveFrame_progress c
    (by rw [hi, f2, List.length_append, f1]; omega) (by rw [hi, f2]; exact hw.1)
    (by rw [hi, f2]; exact hw.2)
  rw [hi, f3] at e1
  obtain rfl := Res.ok.inj e1
  rw [hi, f2, f4, processFrame_eq] at e2
  rw [e2]
  refine ⟨rfl, ?_⟩
  show c.conn.incoming.drop _ = rest
  rw [hi, f5]

/-- C103 is false of longer data. Given any octets, frames of an attacker's choice for instance, of
length 2^24 after any beginning: sent as the data of one DATA frame they are read as a DATA frame
with the beginning only, followed by the given octets as frames; the receiving end of this library
reads them so, too. -/
theorem C103_data_read_as_frames_violated [Platform] (flags : UInt8) (sid : UInt32)
    (data frames : Bytes) (hs : sid.toNat < 2 ^ 31) (hd : data.length < 2 ^ 24)
    (hf : frames.length = 2 ^ 24) :
    (Frame.data (DataFrame.new flags sid (data ++ frames))).serialize =
      .ok (frameOctets 0 flags sid.toNat data ++ frames) ∧
    ∀ d : Client, d.conn.incoming = frameOctets 0 flags sid.toNat data ++ frames →
      Willing d.conn.reads (9 + data.length) →
      d.receiveFrame.1 = .ok (.data (DataFrame.new flags sid data)) ∧
        d.receiveFrame.2.conn.incoming = frames := by
  refine ⟨?_, fun d hi hw => receive_data d flags sid data frames hs hd hi hw⟩
  unfold Frame.serialize
  simp only
  unfold DataFrame.serialize DataFrame.new
  show Res.ok ((⟨castToFhLength (data ++ frames).length, 0, flags, 0, sid⟩ :
    FrameHeader).serialize ++ (data ++ frames)) = _
  have hl : be 3 (castToFhLength (data ++ frames).length).toNat = be 3 data.length := by
    apply be_eq_of_mod
    unfold castToFhLength
    rw [UInt32.toNat_ofNat', List.length_append, hf]
    omega
  have h0 : ∀ n, (lowBits 1 (0 : UInt8).toNat <<< 31) ||| n = n := fun n => by
    simp [lowBits]
  rw [FrameHeader.serialize_eq, hl, h0, ← List.append_assoc]
  rfl

/-- A concrete case: an attacker's RST_STREAM, and zeros to fill up. -/
example [Platform] : ∃ payload : Bytes,
    frameOctets 3 0 1 [0, 0, 0, 8] <:+: payload ∧
    (Frame.data (DataFrame.new 0 5 payload)).serialize =
      .ok (frameOctets 0 0 5 (bstr "abc") ++ frameOctets 3 0 1 [0, 0, 0, 8] ++
        List.replicate (2 ^ 24 - 13) 0) := by
  refine ⟨bstr "abc" ++ (frameOctets 3 0 1 [0, 0, 0, 8] ++ List.replicate (2 ^ 24 - 13) 0), ?_, ?_⟩
  · exact ⟨_, _, by rw [List.append_assoc]⟩
  · rw [(C103_data_read_as_frames_violated 0 5 (bstr "abc") _ (by decide) (by decide)
      (by rw [List.length_append, List.length_replicate]; rfl)).1, List.append_assoc]
    rfl

/-- C103, exactly, for data of any length: whatever the data, the peer reads - there is only one way to
read it - a DATA frame with as many octets of it as remain when its length is divided by 2^24, and the
others as what follows the frame. So it reads the data as one frame if and only if they are fewer than
2^24 octets. Missing (false of the code): longer data. -/
theorem C103_exact_partial [Platform] (flags : UInt8) (sid : UInt32) (payload : Bytes)
    (hs : sid.toNat < 2 ^ 31) :
    ∃ wire, (Frame.data (DataFrame.new flags sid payload)).serialize = .ok wire ∧
      (∀ (type flags' : UInt8) (sid' : UInt32) (first rest : Bytes),
        first.length < 2 ^ 24 → sid'.toNat < 2 ^ 31 →
        (wire = frameOctets type flags' sid'.toNat first ++ rest ↔
          type = 0 ∧ flags' = flags ∧ sid' = sid ∧
            first = payload.take (payload.length % 2 ^ 24) ∧
            rest = payload.drop (payload.length % 2 ^ 24))) ∧
      (payload.drop (payload.length % 2 ^ 24) = [] ↔ payload.length < 2 ^ 24) := by
  obtain ⟨n, hn⟩ : ∃ n, n = payload.length % 2 ^ 24 := ⟨_, rfl⟩
  rw [← hn]
  have hlt : (payload.take n).length < 2 ^ 24 := by rw [List.length_take]; omega
  have hser : (Frame.data (DataFrame.new flags sid payload)).serialize =
      .ok (frameOctets 0 flags sid.toNat (payload.take n) ++ payload.drop n) := by
    unfold Frame.serialize
    simp only
    unfold DataFrame.serialize DataFrame.new
    show Res.ok ((⟨castToFhLength payload.length, 0, flags, 0, sid⟩ :
      FrameHeader).serialize ++ payload) = _
    have hl : be 3 (castToFhLength payload.length).toNat = be 3 (payload.take n).length := by
      apply be_eq_of_mod
      unfold castToFhLength
      rw [UInt32.toNat_ofNat', List.length_take]
      omega
    have h0 : ∀ n, (lowBits 1 (0 : UInt8).toNat <<< 31) ||| n = n := fun n => by
      simp [lowBits]
    rw [FrameHeader.serialize_eq, hl, h0]
    unfold frameOctets
    simp only [List.append_assoc, List.take_append_drop]
  refine ⟨_, hser, fun type flags' sid' first rest hf hs' => ⟨fun h => ?_, ?_⟩, ?_⟩
  · obtain ⟨h1, h2, h3, h4, h5⟩ := frameOctets_inj hlt hf hs hs' h
    exact ⟨h1.symm, h2.symm, h3.symm, h4.symm, h5.symm⟩
  · rintro ⟨rfl, rfl, rfl, rfl, rfl⟩
    rfl
  · rw [List.drop_eq_nil_iff]
    omega

/-- A concrete case: of 2^24 + 3 octets the peer reads the first three as the data. -/
example [Platform] : ∃ wire, (Frame.data (DataFrame.new 0 5
      (bstr "abc" ++ List.replicate (2 ^ 24) 0))).serialize = .ok wire ∧
    wire = frameOctets 0 0 5 (bstr "abc") ++ List.replicate (2 ^ 24) 0 := by
  obtain ⟨wire, h1, h2, -⟩ := C103_exact_partial 0 5 (bstr "abc" ++ List.replicate (2 ^ 24) 0)
    (by decide)
  have hl : (bstr "abc" ++ List.replicate (2 ^ 24) (0 : UInt8)).length % 2 ^ 24 =
      (bstr "abc").length := by
    rw [List.length_append, List.length_replicate]
    decide
  refine ⟨wire, h1, (h2 0 0 5 _ _ (by decide) (by decide)).2 ⟨rfl, rfl, rfl, ?_, ?_⟩⟩
  · rw [hl, List.take_left]
  · rw [hl, List.drop_left]

/-! ## C104 -/

/-- C104 is false of what is sent: RFC 7540 4.2 has a peer that has announced nothing else reject
frames of more than 16384 octets. Nothing keeps a program from sending them. -/
theorem C104_sent_violated [Platform] (c : Client) (flags : UInt8) (sid : UInt32) (payload : Bytes)
    (hs : sid.toNat < 2 ^ 31) (_ : 16384 < payload.length) (h2 : payload.length < 2 ^ 24)
    (hw : Willing c.conn.writes (9 + payload.length)) :
    (c.sendFrame (.data (DataFrame.new flags sid payload))).1 = .ok () ∧
    (c.sendFrame (.data (DataFrame.new flags sid payload))).2.conn.sent =
      c.conn.sent ++ frameOctets 0 flags sid.toNat payload := by
  have hser := (C36_data_round_trip flags sid payload .default hs h2).1
  have e : c.sendFrame (.data (DataFrame.new flags sid payload)) =
      c.sendRawData (frameOctets 0 flags sid.toNat payload) := by
    unfold Client.sendFrame Frame.serialize
    simp only
    rw [hser]
  have hlen := (front_frame 0 flags sid payload [] h2 hs).1
  rw [e]
  exact C55_progress c _ (by omega) (by rw [hlen]; exact hw)

/-- C104 is false of what is received: a client that has announced nothing has to reject frames of
more than 16384 octets, but every DATA frame up to 2^24 - 1 octets is delivered. -/
theorem C104_received_violated [Platform] (c : Client) (flags : UInt8) (sid : UInt32)
    (payload rest : Bytes) (hs : sid.toNat < 2 ^ 31) (_ : 16384 < payload.length)
    (h2 : payload.length < 2 ^ 24)
    (hi : c.conn.incoming = frameOctets 0 flags sid.toNat payload ++ rest)
    (hw : Willing c.conn.reads (9 + payload.length)) :
    c.receiveFrame.1 = .ok (.data (DataFrame.new flags sid payload)) :=
  (receive_data c flags sid payload rest hs h2 hi hw).1

/-- C104, the part that holds: a call of receive_frame takes at most 9 + 2^24 - 1 octets from the
connection, whatever the peer sends. Missing: the limit of 16384, see above. -/
theorem C104_bounded_partial [Platform] (c : Client) :
    ∃ octets, c.conn.incoming = octets ++ c.receiveFrame.2.conn.incoming ∧
      octets.length ≤ 9 + (2 ^ 24 - 1) := by
  have hb := take_beValue_lt (raw := c.conn.incoming) 3
  obtain ⟨reads', -, ⟨k, h1, h2, h3⟩ | ⟨fh, -, -, h3, -, h5⟩⟩ := receiveFrame_cases c
  · refine ⟨c.conn.incoming.take k, ?_, by rw [List.length_take]; omega⟩
    rw [h3]
    exact (List.take_append_drop _ _).symm
  · refine ⟨c.conn.incoming.take (9 + beValue (c.conn.incoming.take 3)), ?_,
      by rw [List.length_take]; omega⟩
    rw [h5, processFrame_eq]
    exact (List.take_append_drop _ _).symm

/-- Non-vacuity of C104: such payloads and transports exist. -/
example : ∃ (payload : Bytes) (schedule : List Nat), 16384 < payload.length ∧
    payload.length < 2 ^ 24 ∧ Willing schedule (9 + payload.length) :=
  ⟨List.replicate 20000 7, List.replicate 20009 1, by rw [List.length_replicate]; omega,
    by rw [List.length_replicate]; omega, by
      rw [List.length_replicate]
      exact ⟨by rw [List.length_replicate], fun k hk => by
        rw [List.take_replicate, List.mem_replicate] at hk
        omega⟩⟩

/-! ## C105 -/

/-- C105, the part that holds: a frame that is neither SETTINGS nor carries a header block leaves no
trace. What is received after it, a CONTINUATION for instance, is what would have been received
without it: `c` receives `f` first, the peer of `d` did not send it. Missing: such a frame between
HEADERS and CONTINUATION is an error (RFC 7540 4.3), see below. -/
theorem C105_between_partial [Platform] (c c' d : Client) (f : Frame)
    (h : c.receiveFrame = (.ok f, c'))
    (ht : f.header.type ≠ 1 ∧ f.header.type ≠ 4 ∧ f.header.type ≠ 5 ∧ f.header.type ≠ 9)
    (hd : d.responseTable = c.responseTable) (hi : d.conn.incoming = c'.conn.incoming)
    (ha : frameLength d.conn.incoming ≤ d.conn.incoming.length)
    (hw : Willing c'.conn.reads (frameLength d.conn.incoming))
    (hw' : Willing d.conn.reads (frameLength d.conn.incoming)) :
    c'.receiveFrame.1 = d.receiveFrame.1 ∧
      c'.receiveFrame.2.responseTable = d.receiveFrame.2.responseTable ∧
      c'.receiveFrame.2.conn.incoming = d.receiveFrame.2.conn.incoming := by
  have htab : c'.responseTable = c.responseTable := by
    obtain ⟨fh, raw, hb, hu⟩ := received_update h
    have htype := hb.type
    rw [updateFrame_built hb] at hu
    generalize c'.responseTable = t' at hu
    clear h
    rw [htype] at ht
    cases hb with
    | headers h1 => exact absurd h1 ht.1
    | rawHeaders h1 => exact absurd h1 ht.1
    | settings h1 => exact absurd h1 ht.2.1
    | pushPromise h1 => exact absurd h1 ht.2.2.1
    | continuation h1 => exact absurd h1 ht.2.2.2
    | data h => cases hu; rfl
    | priority h => cases hu; rfl
    | rstStream h => cases hu; rfl
    | ping h => cases hu; rfl
    | goaway h => cases hu; rfl
    | windowUpdate h => cases hu; rfl
  exact C57_same_outcome c' d hi.symm (htab.trans hd.symm) (by rw [← hi]; exact ha)
    (by rw [← hi]; exact hw) hw'

/-- Non-vacuity of C105: a PING before a CONTINUATION, and the CONTINUATION alone. -/
example [P : Platform] :
    let c := Client.new ⟨frameOctets 6 0 0 [1, 2, 3, 4, 5, 6, 7, 8] ++ frameOctets 9 4 1 [0x82], [],
      List.replicate 16 9, []⟩
    let d := Client.new ⟨frameOctets 9 4 1 [0x82], [], List.replicate 12 3, []⟩
    (c.receiveFrame.1.bind fun f => .ok f.header.type) = .ok 6 ∧
      Willing c.receiveFrame.2.conn.reads (frameLength d.conn.incoming) ∧
      Willing d.conn.reads (frameLength d.conn.incoming) ∧
      (d.receiveFrame.1.bind fun f => .ok f.headerList) = .ok [(bstr ":method", bstr "GET")] := by
  rcases P with ⟨_ | _, _ | _⟩ <;> decide +kernel

/-- C105 is false of the code: HEADERS without END_HEADERS on stream 1, PING, and CONTINUATION on
stream 3 are an error twice over; all three are delivered. -/
theorem C105_interrupted_violated [P : Platform] :
    let c := Client.new ⟨frameOctets 1 0 1 [0x88] ++ frameOctets 6 0 0 [1, 2, 3, 4, 5, 6, 7, 8] ++
      frameOctets 9 4 3 [0x82], [], List.replicate 6 9, []⟩
    ((runCalls c [.receiveFrame, .receiveFrame, .receiveFrame]).1.map fun r =>
      match r.2 with
      | .frame (.ok f) => (f.header.type.toNat, f.header.streamId.toNat, f.headerList)
      | _ => (99, 0, [])) =
      [(1, 1, [(bstr ":status", bstr "200")]), (6, 0, []), (9, 3, [(bstr ":method", bstr "GET")])] := by
  rcases P with ⟨_ | _, _ | _⟩ <;> decide +kernel

end Mh2c
