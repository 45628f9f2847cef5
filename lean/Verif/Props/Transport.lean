/-
C55, C56 (raw data), C64 (constructor), C65 (preface).
-/
import Verif.Proofs.Transport
import Verif.Spec.Session

namespace Mh2c

/-! ## C55 -/

/-- C55. For every behaviour of the transport: the call returns iff exactly the buffer was appended
to what was sent; otherwise it throws runtime_error and a strict prefix of the buffer was sent.
Nothing else changes, and the transport calls are made in order. -/
theorem C55_send (c : Client) (data : Bytes) :
    ∃ sent writes, (c.sendRawData data).2 =
        { c with conn := { c.conn with sent := sent, writes := writes } } ∧
      writes <:+ c.conn.writes ∧
      (((c.sendRawData data).1 = .ok () ∧ sent = c.conn.sent ++ data) ∨
       ((c.sendRawData data).1 = .throw .runtimeError ∧
        ∃ part rest, data = part ++ rest ∧ rest ≠ [] ∧ sent = c.conn.sent ++ part)) := by
  unfold Client.sendRawData Conn.write
  obtain ⟨w, hw, h | ⟨k, h1, h2⟩⟩ := writeLoop_spec c.conn.writes c.conn.sent data
  · rw [h]
    exact ⟨_, w, rfl, hw, Or.inl ⟨rfl, rfl⟩⟩
  · rw [h2]
    refine ⟨_, w, rfl, hw, Or.inr ⟨rfl, data.take k, data.drop k, (List.take_append_drop _ _).symm,
      ?_, rfl⟩⟩
    intro h
    have := congrArg List.length h
    simp only [List.length_drop, List.length_nil] at this
    omega

/-- C55. A transport that takes at least one octet per call takes the whole buffer. -/
theorem C55_progress (c : Client) (data : Bytes) (h : data.length < 2 ^ 31)
    (hw : Willing c.conn.writes data.length) :
    (c.sendRawData data).1 = .ok () ∧ (c.sendRawData data).2.conn.sent = c.conn.sent ++ data := by
  unfold Client.sendRawData Conn.write
  obtain ⟨j, -, e⟩ := writeLoop_progress c.conn.writes c.conn.sent data hw.2 hw.1 h
  rw [e]
  exact ⟨rfl, rfl⟩

/-- C55. A transport call that fails makes the send throw, wherever it occurs: a schedule that
offers fewer octets than the buffer has ends in runtime_error. -/
theorem C55_failure (c : Client) (data : Bytes) (h : c.conn.writes.sum < data.length) :
    (c.sendRawData data).1 = .throw .runtimeError := by
  have key : ∀ (ws : List Nat) (sent data : Bytes), ws.sum < data.length →
      (writeLoop ws sent data).1 = .throw .runtimeError := by
    intro ws
    induction ws with
    | nil =>
        intro sent data h
        cases data with
        | nil => simp at h
        | cons b bs => simp [writeLoop]
    | cons w ws ih =>
        intro sent data h
        cases data with
        | nil => simp at h
        | cons b bs =>
            rw [writeLoop]
            by_cases hk : min w (toIntLength (b :: bs).length) = 0
            · rw [if_pos hk]
            · rw [if_neg hk]
              refine ih _ _ ?_
              rw [List.sum_cons] at h
              rw [List.length_drop]
              omega
  unfold Client.sendRawData Conn.write
  have := key c.conn.writes c.conn.sent data h
  rcases hw : writeLoop c.conn.writes c.conn.sent data with ⟨r, w, s⟩
  rw [hw] at this
  exact this

example : let c := Client.new ⟨[], [9], [], [2, 1, 4, 7]⟩
    c.sendRawData [1, 2, 3, 4, 5] = (.ok (), Client.new ⟨[], [9, 1, 2, 3, 4, 5], [], [7]⟩) := by decide

example : let c := Client.new ⟨[], [9], [], [2, 1, 0, 7]⟩
    c.sendRawData [1, 2, 3, 4, 5] =
      (.throw .runtimeError, Client.new ⟨[], [9, 1, 2, 3], [], [7]⟩) := by decide

example : Willing [3, 1, 9, 1] 3 ∧ ([2, 1] : List Nat).sum < ([1, 2, 3, 4] : Bytes).length := by decide

/-! ## C56 -/

/-- C56. The call returns iff it got exactly the next `n` octets of the stream, in order; otherwise
it throws runtime_error, having taken fewer. Nothing else changes. -/
theorem C56_receive (c : Client) (n : Nat) :
    ∃ incoming reads, (c.receiveRawData n).2 =
        { c with conn := { c.conn with incoming := incoming, reads := reads } } ∧
      reads <:+ c.conn.reads ∧
      ((∃ got, (c.receiveRawData n).1 = .ok got ∧ got.length = n ∧
          c.conn.incoming = got ++ incoming) ∨
       ((c.receiveRawData n).1 = .throw .runtimeError ∧
        ∃ lost, lost.length < n ∧ c.conn.incoming = lost ++ incoming)) := by
  unfold Client.receiveRawData Conn.read
  obtain ⟨r, hr, ⟨h1, -, h⟩ | ⟨k, h1, h2, h3⟩⟩ := readLoop_spec c.conn.reads c.conn.incoming n
  · rw [h]
    exact ⟨_, r, rfl, hr, Or.inl ⟨_, rfl, by simp [h1], (List.take_append_drop _ _).symm⟩⟩
  · rw [h3]
    refine ⟨_, r, rfl, hr, Or.inr ⟨rfl, c.conn.incoming.take k, ?_,
      (List.take_append_drop _ _).symm⟩⟩
    rw [List.length_take]
    omega

/-- C56. If the octets are there and every call delivers at least one, the call returns. -/
theorem C56_progress (c : Client) (n : Nat) (h : n < 2 ^ 31) (hi : n ≤ c.conn.incoming.length)
    (hr : Willing c.conn.reads n) :
    (c.receiveRawData n).1 = .ok (c.conn.incoming.take n) ∧
      (c.receiveRawData n).2.conn.incoming = c.conn.incoming.drop n := by
  unfold Client.receiveRawData Conn.read
  obtain ⟨j, -, e⟩ := readLoop_progress c.conn.reads c.conn.incoming n hr.2 hr.1 h hi
  rw [e]
  exact ⟨rfl, rfl⟩

/-- C56. If the peer closes too early, or the transport offers too little, the call throws. -/
theorem C56_failure (c : Client) (n : Nat) (h : c.conn.incoming.length < n ∨ c.conn.reads.sum < n) :
    (c.receiveRawData n).1 = .throw .runtimeError := by
  rcases h with h | h
  · obtain ⟨incoming, reads, -, -, ⟨got, -, h2, h3⟩ | ⟨h1, -⟩⟩ := C56_receive c n
    · have := congrArg List.length h3
      simp only [List.length_append] at this
      omega
    · exact h1
  · have key : ∀ (rs : List Nat) (inc : Bytes) (n : Nat), rs.sum < n →
        (readLoop rs inc n).1 = .throw .runtimeError := by
      intro rs
      induction rs with
      | nil =>
          intro inc n h
          cases n with
          | zero => simp at h
          | succ n => simp [readLoop]
      | cons r rs ih =>
          intro inc n h
          cases n with
          | zero => simp at h
          | succ n =>
              rw [readLoop]
              by_cases hk : min r (min (toIntLength (n + 1)) inc.length) = 0
              · rw [if_pos hk]
              · rw [if_neg hk]
                rw [List.sum_cons] at h
                have := ih (inc.drop (min r (min (toIntLength (n + 1)) inc.length)))
                  (n + 1 - min r (min (toIntLength (n + 1)) inc.length)) (by omega)
                rcases hw : readLoop rs (inc.drop (min r (min (toIntLength (n + 1)) inc.length)))
                  (n + 1 - min r (min (toIntLength (n + 1)) inc.length)) with ⟨x, y, z⟩
                rw [hw] at this
                simp only at this
                rw [this]
    unfold Client.receiveRawData Conn.read
    have := key c.conn.reads c.conn.incoming n h
    rcases hw : readLoop c.conn.reads c.conn.incoming n with ⟨r, w, s⟩
    rw [hw] at this
    exact this

example : let c := Client.new ⟨[1, 2, 3, 4, 5], [], [2, 9, 3], []⟩
    c.receiveRawData 4 = (.ok [1, 2, 3, 4], Client.new ⟨[5], [], [3], []⟩) := by decide

example : let c := Client.new ⟨[1, 2, 3, 4, 5], [], [2, 0, 3], []⟩
    c.receiveRawData 4 = (.throw .runtimeError, Client.new ⟨[3, 4, 5], [], [3], []⟩) := by decide

/-! ## C64 -/

/-- C64. The constructor returns iff every step succeeded, the protocol selected by the peer is
exactly "h2", and the certificate verified whenever verification was asked for. -/
theorem C64_constructor (mode : VerifyMode) (o : TlsOutcome) :
    connectTls mode o = .ok () ↔
      o.hasSsl = true ∧ o.setAlpn = 0 ∧ o.setVerifyPaths = 1 ∧ 0 < o.connect ∧ 0 < o.handshake ∧
      (mode = .verifyServerCert → o.verifyResult = 0) ∧ o.alpnSelected = [0x68, 0x32] := by
  have halpn : (o.alpnSelected.length = 2 ∧
      o.alpnSelected = ([0x68, 0x32] : Bytes).take o.alpnSelected.length) ↔
      o.alpnSelected = [0x68, 0x32] := by
    constructor
    · rintro ⟨h1, h2⟩
      rw [h1] at h2
      exact h2
    · intro h; rw [h]; decide
  unfold connectTls
  simp only [List.length_cons, List.length_nil, Nat.reduceAdd, Nat.reduceSub, List.drop_succ_cons,
    List.drop_zero, halpn]
  cases hm : mode <;> cases hs : o.hasSsl <;> simp
  all_goals
    constructor
    · intro h
      refine ⟨?_, ?_, ?_, ?_, ?_⟩ <;> (try constructor) <;> by_contra hc <;> simp_all
    · rintro h
      obtain ⟨h1, h2, h3, h4, h5⟩ := h
      have h3' : ¬ o.connect ≤ 0 := by omega
      have h4' : ¬ o.handshake ≤ 0 := by omega
      simp [h1, h2, h3', h4', h5]

/-- C64. In all other cases it throws runtime_error. -/
theorem C64_otherwise_throws (mode : VerifyMode) (o : TlsOutcome) (h : connectTls mode o ≠ .ok ()) :
    connectTls mode o = .throw .runtimeError := by
  unfold connectTls at h ⊢
  simp only at h ⊢
  repeat' split
  all_goals first | rfl | simp_all

example : connectTls .verifyServerCert ⟨true, 0, 1, 1, 1, 0, [0x68, 0x32]⟩ = .ok () ∧
    connectTls .verifyServerCert ⟨true, 0, 1, 1, 1, 20, [0x68, 0x32]⟩ = .throw .runtimeError ∧
    connectTls .verifyNone ⟨true, 0, 1, 1, 1, 20, [0x68, 0x32]⟩ = .ok () ∧
    connectTls .verifyNone ⟨true, 0, 1, 1, 1, 0, [0x68]⟩ = .throw .runtimeError := by decide

/-! ## C65 -/

/-- C65. The call returns iff exactly the 24 octets were sent; otherwise it throws. -/
theorem C65_preface (c : Client) :
    rfcPreface.length = 24 ∧
    ∃ sent writes, c.sendConnectionPreface.2 =
        { c with conn := { c.conn with sent := sent, writes := writes } } ∧
      ((c.sendConnectionPreface.1 = .ok () ∧ sent = c.conn.sent ++ rfcPreface) ∨
       (c.sendConnectionPreface.1 = .throw .runtimeError ∧
        ∃ part rest, rfcPreface = part ++ rest ∧ rest ≠ [] ∧ sent = c.conn.sent ++ part)) := by
  have h : bstr "PRI * HTTP/2.0\r\n\r\nSM\r\n\r\n" = rfcPreface := by decide +kernel
  refine ⟨rfl, ?_⟩
  unfold Client.sendConnectionPreface
  rw [h]
  obtain ⟨s, w, h1, -, h2⟩ := C55_send c rfcPreface
  exact ⟨s, w, h1, h2⟩

/-- C65. It is sent completely by every transport that makes progress. -/
theorem C65_progress (c : Client) (hw : Willing c.conn.writes 24) :
    c.sendConnectionPreface.1 = .ok () ∧
      c.sendConnectionPreface.2.conn.sent = c.conn.sent ++ rfcPreface := by
  have h : bstr "PRI * HTTP/2.0\r\n\r\nSM\r\n\r\n" = rfcPreface := by decide +kernel
  unfold Client.sendConnectionPreface
  rw [h]
  exact C55_progress c rfcPreface (by decide) hw

example : (Client.new ⟨[], [], [], [10, 100]⟩).sendConnectionPreface =
    (.ok (), Client.new ⟨[], rfcPreface, [], []⟩) := by decide +kernel

end Mh2c
