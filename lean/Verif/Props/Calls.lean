import Verif.Spec.Calls
import Verif.Props.Client

/-! C117: transport calls are few. -/

namespace Mh2c

open Rfc

private theorem readLoop_calls (reads : List Nat) (incoming : Bytes) (n : Nat) :
    (readLoop reads incoming n).2.2.length ≤ incoming.length ∧
    (readLoop reads incoming n).2.1.length ≤ reads.length ∧
    reads.length + (readLoop reads incoming n).2.2.length ≤
      (readLoop reads incoming n).2.1.length + incoming.length +
        (if (readLoop reads incoming n).1 = .throw .runtimeError then 1 else 0) := by
  induction reads generalizing incoming n with
  | nil => cases n <;> simp [readLoop]
  | cons r rs ih =>
      cases n with
      | zero => simp [readLoop]
      | succ n =>
          rw [readLoop]
          split
          · simp; omega
          · rename_i hk
            have := ih (incoming.drop (min r (min (toIntLength (n + 1)) incoming.length)))
              (n + 1 - min r (min (toIntLength (n + 1)) incoming.length))
            revert this
            generalize readLoop rs _ _ = x
            rw [List.length_drop]
            have hl : min r (min (toIntLength (n + 1)) incoming.length) ≤ incoming.length := by omega
            revert hk hl
            generalize min r (min (toIntLength (n + 1)) incoming.length) = k
            obtain ⟨_ | _ | _ | _, rs', inc'⟩ := x <;>
            · intro hk hl ⟨h1, h2, h3⟩
              simp only [List.length_cons] at *
              refine ⟨by omega, by omega, ?_⟩
              split at h3 <;> simp_all <;> omega

private theorem writeLoop_calls (writes : List Nat) (sent data : Bytes) :
    sent.length ≤ (writeLoop writes sent data).2.2.length ∧
    (writeLoop writes sent data).2.1.length ≤ writes.length ∧
    writes.length + sent.length ≤
      (writeLoop writes sent data).2.1.length + (writeLoop writes sent data).2.2.length +
        (if (writeLoop writes sent data).1 = .throw .runtimeError then 1 else 0) := by
  induction writes generalizing sent data with
  | nil => cases data <;> simp [writeLoop]
  | cons w ws ih =>
      cases data with
      | nil => simp [writeLoop]
      | cons b bs =>
          rw [writeLoop]
          split
          · simp; omega
          · rename_i hk
            have := ih (sent ++ (b :: bs).take (min w (toIntLength (b :: bs).length)))
              ((b :: bs).drop (min w (toIntLength (b :: bs).length)))
            revert this
            generalize writeLoop ws _ _ = x
            rw [List.length_append, List.length_take]
            have hl : 0 < (b :: bs).length := by simp
            intro ⟨h1, h2, h3⟩
            simp only [List.length_cons] at *
            refine ⟨by omega, by omega, ?_⟩
            split at h3 <;> simp_all <;> omega

/-- From `c` to `c'` at most `b` transport calls more than octets. -/
private structure Few (c c' : Client) (b : Nat) : Prop where
  reads : c'.conn.reads.length ≤ c.conn.reads.length
  writes : c'.conn.writes.length ≤ c.conn.writes.length
  incoming : c'.conn.incoming.length ≤ c.conn.incoming.length
  sent : c.conn.sent.length ≤ c'.conn.sent.length
  calls : c.conn.reads.length + c.conn.writes.length + c'.conn.incoming.length +
      c.conn.sent.length ≤
    c'.conn.reads.length + c'.conn.writes.length + c.conn.incoming.length + c'.conn.sent.length + b

private theorem Few.trans {c c' c'' : Client} {a b : Nat} (h : Few c c' a) (h' : Few c' c'' b) :
    Few c c'' (a + b) := by
  obtain ⟨h1, h2, h3, h4, h5⟩ := h
  obtain ⟨g1, g2, g3, g4, g5⟩ := h'
  constructor <;> omega

private theorem Few.bound {c c' : Client} {b : Nat} (h : Few c c' b) :
    transportCalls c c' ≤ octetsMoved c c' + b := by
  obtain ⟨h1, h2, h3, h4, h5⟩ := h
  unfold transportCalls octetsMoved
  omega

private theorem Few.same {c c' : Client} (h : c'.conn = c.conn) (b : Nat) : Few c c' b := by
  constructor <;> (rw [h]; try omega)

private theorem few_receive (c : Client) (n : Nat) :
    Few c (c.receiveRawData n).2
      (if (c.receiveRawData n).1 = .throw .runtimeError then 1 else 0) := by
  have := readLoop_calls c.conn.reads c.conn.incoming n
  revert this
  unfold Client.receiveRawData Conn.read
  rcases readLoop c.conn.reads c.conn.incoming n with ⟨r, reads, incoming⟩
  intro ⟨h1, h2, h3⟩
  constructor <;> (simp_all; try omega)

private theorem few_send (c : Client) (data : Bytes) :
    Few c (c.sendRawData data).2
      (if (c.sendRawData data).1 = .throw .runtimeError then 1 else 0) := by
  have := writeLoop_calls c.conn.writes c.conn.sent data
  revert this
  unfold Client.sendRawData Conn.write
  rcases writeLoop c.conn.writes c.conn.sent data with ⟨r, writes, sent⟩
  intro ⟨h1, h2, h3⟩
  constructor <;> (simp_all; try omega)

private theorem few_receiveFrame [Platform] (c : Client) :
    Few c c.receiveFrame.2 (if c.receiveFrame.1 = .throw .runtimeError then 1 else 0) := by
  have h1 := few_receive c 9
  unfold Client.receiveFrame
  rcases hr : c.receiveRawData 9 with ⟨r, c1⟩
  rw [hr] at h1
  cases r with
  | ub k => simpa using h1
  | diverge => simpa using h1
  | throw e => simpa using h1
  | ok rawFh =>
      replace h1 : Few c c1 0 := by simpa using h1
      have key : ∀ (d : Client) (fh : FrameHeader) (raw : Bytes) (b : Nat), Few c d 0 →
          Few c (d.processFrame fh raw).2 b := fun d fh raw b h => by
        have := h.trans (Few.same (c := d) (c' := (d.processFrame fh raw).2)
          (by rw [processFrame_eq]) b)
        rwa [Nat.zero_add] at this
      cases hf : buildFrameHeader rawFh with
      | ub k => simpa [hf] using h1
      | diverge => simpa [hf] using h1
      | throw e =>
          have := h1.trans (Few.same rfl (if e = Exc.runtimeError then 1 else 0))
          simpa [hf] using this
      | ok fh =>
          simp only [hf]
          by_cases h0 : fh.length.toNat > 0
          · rw [if_pos h0]
            have h2 := few_receive c1 fh.length.toNat
            rcases hr2 : c1.receiveRawData fh.length.toNat with ⟨r2, c2⟩
            rw [hr2] at h2
            replace h2 := h1.trans h2
            cases r2 with
            | ub k => simpa using h2
            | diverge => simpa using h2
            | throw e => simpa using h2
            | ok raw => exact key c2 fh raw _ (by simpa using h2)
          · rw [if_neg h0]
            exact key c1 fh [] _ h1

private theorem thrown_iff {α : Type} (x : Res α) (e : Exc) :
    ((do let _ ← x; return ()) : Res Unit) = .throw e ↔ x = .throw e := by
  cases x <;> simp

private theorem few_op [Platform] (op : Op) (c : Client) :
    Few c (op.run c).2 (if (op.run c).1 = .throw .runtimeError then 1 else 0) := by
  cases op with
  | sendPreface => exact few_send c _
  | sendRaw data => exact few_send c data
  | receiveRaw n =>
      have e : (Op.receiveRaw n).run c =
        ((do let _ ← (c.receiveRawData n).1; return ()), (c.receiveRawData n).2) := rfl
      rw [e]
      simp only [thrown_iff]
      exact few_receive c n
  | sendFrame f =>
      have e : (Op.sendFrame f).run c = c.sendFrame f := rfl
      rw [e]
      unfold Client.sendFrame
      cases f.serialize with
      | ok raw => exact few_send c raw
      | throw _ => exact Few.same rfl _
      | ub _ => exact Few.same rfl _
      | diverge => exact Few.same rfl _
  | receiveFrame =>
      have e : Op.receiveFrame.run c =
        ((do let _ ← c.receiveFrame.1; return ()), c.receiveFrame.2) := rfl
      rw [e]
      simp only [thrown_iff]
      exact few_receiveFrame c
  | updateRequestBlock b => exact Few.same (c := c) (c' := (c.updateRequestDynamicTable b).2) rfl _
  | updateRequestSize n =>
      refine Few.same (c := c) (c' := (c.updateRequestTableSize n).2) ?_ _
      unfold Client.updateRequestTableSize
      cases c.requestTable.updateTableSize n <;> rfl

/-- C117. No call polls the transport: a call that does not throw runtime_error has moved at least
one octet in each transport call it made, and one that throws has made at most one call more, the one
that failed. -/
theorem C117_call [Platform] (op : Op) (c : Client) :
    transportCalls c (op.run c).2 ≤ octetsMoved c (op.run c).2 + 1 ∧
    ((op.run c).1 ≠ .throw .runtimeError →
      transportCalls c (op.run c).2 ≤ octetsMoved c (op.run c).2) := by
  have h := (few_op op c).bound
  constructor
  · split at h <;> omega
  · intro hr
    rwa [if_neg hr] at h

/-- C117. In a whole session the transport is called at most once for each octet moved and once for
each call of the API. -/
theorem C117_session [Platform] (c c' : Client) (ops : List Op) (h : History c ops c') :
    transportCalls c c' ≤ octetsMoved c c' + ops.length := by
  refine Few.bound ?_
  induction h with
  | nil c => exact Few.same rfl _
  | cons c op ops c' hs _ ih =>
      have h1 := (few_op op c).trans ih
      obtain ⟨g1, g2, g3, g4, g5⟩ := h1
      constructor
      iterate 4 assumption
      rw [List.length_cons]
      split at g5 <;> omega

/-- C117. A frame is handed to the transport in one piece: if the transport takes all of it at once,
send_frame is a single BIO_write. -/
theorem C117_one_write [Platform] (c : Client) (f : Frame) (raw : Bytes) (w : Nat) (ws : List Nat)
    (hf : f.serialize = .ok raw) (h0 : raw ≠ []) (hl : raw.length < 2 ^ 31)
    (hc : c.conn.writes = w :: ws) (hw : raw.length ≤ w) :
    c.sendFrame f =
      (.ok (), { c with conn := { c.conn with writes := ws, sent := c.conn.sent ++ raw } }) := by
  obtain ⟨⟨incoming, sent, reads, writes⟩, rt, st⟩ := c
  obtain rfl : writes = w :: ws := hc
  unfold Client.sendFrame
  rw [hf]
  unfold Client.sendRawData Conn.write
  cases raw with
  | nil => exact absurd rfl h0
  | cons b bs =>
      have hk : min w (toIntLength (b :: bs).length) = (b :: bs).length := by
        rw [toIntLength, if_pos (by omega)]; omega
      simp only [writeLoop, hk]
      simp [writeLoop]

/-- C117. If the transport delivers what is asked for, receive_frame is one BIO_read for the frame
header and one for the payload, and no second one if there is no payload. -/
theorem C117_two_reads [Platform] (c : Client) (r1 r2 : Nat) (rs : List Nat)
    (ha : frameLength c.conn.incoming ≤ c.conn.incoming.length)
    (hc : c.conn.reads = r1 :: r2 :: rs) (h1 : 9 ≤ r1) (h2 : announced c.conn.incoming ≤ r2) :
    c.receiveFrame.2.conn.reads = if announced c.conn.incoming = 0 then r2 :: rs else rs := by
  obtain ⟨⟨incoming, sent, reads, writes⟩, rt, st⟩ := c
  obtain rfl : reads = r1 :: r2 :: rs := hc
  unfold frameLength announced at *
  simp only at *
  have hb := take_beValue_lt (raw := incoming) 3
  have once : ∀ (r : Nat) (l : List Nat) (inc : Bytes) (n : Nat), 0 < n → n ≤ r →
      n ≤ inc.length → n < 2 ^ 31 →
      readLoop (r :: l) inc n = (.ok (inc.take n), l, inc.drop n) := by
    intro r l inc n hn hr hi hlt
    obtain ⟨n, rfl⟩ : ∃ m, n = m + 1 := ⟨n - 1, by omega⟩
    have hk : min r (min (toIntLength (n + 1)) inc.length) = n + 1 := by
      rw [toIntLength, if_pos (by omega)]; omega
    simp only [readLoop, hk]
    simp [readLoop]
  unfold Client.receiveFrame Client.receiveRawData Conn.read
  rw [once r1 _ incoming 9 (by omega) h1 (by omega) (by omega)]
  simp only
  obtain ⟨fh, hf, hl'⟩ := announced_eq (incoming := incoming) (by omega)
  rw [hf]
  simp only
  rw [hl']
  by_cases h0 : beValue (incoming.take 3) > 0
  · rw [if_pos h0, if_neg (by omega),
      once r2 rs (incoming.drop 9) _ h0 h2 (by rw [List.length_drop]; omega) (by omega)]
    simp only
    rw [processFrame_eq]
  · rw [if_neg h0, if_pos (by omega), processFrame_eq]

/-- An empty SETTINGS frame and a PING: octet by octet 26 calls, otherwise 3; a 27th call fails. -/
example [p : Platform] :
    let stream : Bytes := [0, 0, 0, 4, 0, 0, 0, 0, 0] ++ [0, 0, 8, 6, 0, 0, 0, 0, 0] ++
      [1, 2, 3, 4, 5, 6, 7, 8]
    let c (reads : List Nat) : Client := .new ⟨stream, [], reads, [9]⟩
    let after (ops : List Op) (c : Client) : Client := ops.foldl (fun c op => (op.run c).2) c
    let twice : List Op := [.receiveFrame, .receiveFrame]
    transportCalls (c (List.replicate 50 1)) (after twice (c (List.replicate 50 1))) = 26 ∧
    transportCalls (c (List.replicate 50 99)) (after twice (c (List.replicate 50 99))) = 3 ∧
    transportCalls (c (List.replicate 50 1))
      (after (twice ++ [.receiveFrame]) (c (List.replicate 50 1))) = 27 ∧
    (c [9, 8]).conn.reads = 9 :: 8 :: [] ∧
    transportCalls (c []) (after [.sendFrame (.settings (SettingsFrame.new 1 0 []))] (c [])) = 1 := by
  rcases p with ⟨a, b⟩
  cases a <;> cases b <;> decide +kernel

end Mh2c
