/-
C47: what one client sends, another one receives.
-/
import Verif.Proofs.Conversation

namespace Mh2c

open Rfc

/-- One step of the sender. -/
theorem sent_step [Platform] {c c1 c2 : Client} {f : Frame} (hf : Proper c.requestTable f)
    (ht : c.requestTable.entries.length ≤ 2 ^ 31 + 65)
    (h1 : c.sendFrame f = (.ok (), c1)) (h2 : c1.follow f = (.ok (), c2)) :
    ∃ (type flags : UInt8) (sid : UInt32) (payload : Bytes) (g : Frame), payload.length < 2 ^ 24 ∧
      sid.toNat < 2 ^ 31 ∧
      c2.conn.sent = c.conn.sent ++ frameOctets type flags sid.toNat payload ∧
      processTable ⟨castToFhLength payload.length, type, flags, 0, sid⟩ payload c.requestTable =
        (.ok g, c2.requestTable) ∧ SameFrame f g := by
  obtain ⟨type, flags, sid, payload, g, a1, a2, a3, a4, a5, a6⟩ := proper_frame hf ht
  refine ⟨type, flags, sid, payload, g, a1, a2, ?_, ?_, a5⟩
  · unfold Client.sendFrame at h1
    rw [a3] at h1
    simp only at h1
    obtain ⟨sent, writes, b1, -, ⟨b2, b3⟩ | ⟨b2, -⟩⟩ :=
      C55_send c (frameOctets type flags sid.toNat payload)
    · rw [h1] at b1
      simp only at b1
      rw [follow_eq] at h2
      injection h2 with _ h2
      rw [← h2, b1, ← b3]
    · rw [h1] at b2; cases b2
  · have hreq : c1.requestTable = c.requestTable := by
      unfold Client.sendFrame at h1
      rw [a3] at h1
      simp only at h1
      obtain ⟨sent, writes, b1, -, -⟩ := C55_send c (frameOctets type flags sid.toNat payload)
      rw [h1] at b1
      simp only at b1
      rw [b1]
    rw [follow_eq, hreq] at h2
    injection h2 with h3 h2
    unfold processTable
    rw [a4]
    simp only
    rw [a6]
    rcases hft : followTable f c.requestTable with ⟨r, t'⟩
    rw [hft] at h3 h2
    simp only at h3 h2
    subst h3
    simp only
    rw [← h2]

/-- One step of the receiver, whatever the transport does: if a frame is returned it is the one. -/
theorem received_step [Platform] {d d1 : Client} {g g' : Frame} {type flags : UInt8} {sid : UInt32}
    {payload rest : Bytes} {t' : DynamicTable} (hl : payload.length < 2 ^ 24)
    (hs : sid.toNat < 2 ^ 31)
    (hi : d.conn.incoming = frameOctets type flags sid.toNat payload ++ rest)
    (hp : processTable ⟨castToFhLength payload.length, type, flags, 0, sid⟩ payload
      d.responseTable = (.ok g, t'))
    (hr : d.receiveFrame = (.ok g', d1)) :
    g' = g ∧ d1.conn.incoming = rest ∧ d1.responseTable = t' := by
  obtain ⟨f1, f2, f3, f4, f5⟩ := front_frame type flags sid payload rest hl hs
  obtain ⟨reads', -, ⟨k, -, -, e⟩ | ⟨fh, e1, -, -, -, e⟩⟩ := receiveFrame_cases d
  · rw [hr] at e; cases e
  · rw [hi, f3] at e1
    obtain rfl := (Res.ok.inj e1).symm
    rw [hi, f2, f4, processFrame_eq, hr] at e
    change _ = ((processTable _ _ d.responseTable).1, _) at e
    simp only [Client.consumed] at e
    rw [hp, hi, f5] at e
    injection e with e1 e2
    rw [e2]
    exact ⟨Res.ok.inj e1, rfl, rfl⟩

/-- C47. The frames sent go on the wire as one string of octets. A client whose response table agrees
with the sender's request table, and whose transport delivers these octets (in pieces of any size,
anything may follow), receives equal frames in the same order, stops exactly at the end of the
string and its table agrees with the sender's again. -/
theorem C47_stream [Platform] (c c' : Client) (fs : List Frame) (h : Sent c fs c') :
    ∃ wire, c'.conn.sent = c.conn.sent ++ wire ∧
      ∀ (d : Client) (rest : Bytes), d.conn.incoming = wire ++ rest →
        d.responseTable = c.requestTable → Willing d.conn.reads wire.length →
        ∃ gs d', Received d gs d' ∧ List.Forall₂ SameFrame fs gs ∧ d'.conn.incoming = rest ∧
          d'.responseTable = c'.requestTable := by
  induction h with
  | nil c => exact ⟨[], by simp, fun d rest hi ht _ => ⟨[], d, .nil d, .nil, hi, ht⟩⟩
  | cons c c1 c2 c' f fs hf ht h1 h2 _ ih =>
      obtain ⟨wire, w1, w2⟩ := ih
      obtain ⟨type, flags, sid, payload, g, a1, a2, a3, a4, a5⟩ := sent_step hf ht h1 h2
      refine ⟨frameOctets type flags sid.toNat payload ++ wire, by rw [w1, a3, List.append_assoc],
        fun d rest hi htab hw => ?_⟩
      rw [List.append_assoc] at hi
      obtain ⟨f1, f2, f3, f4, f5⟩ := front_frame type flags sid payload (wire ++ rest) a1 a2
      rw [List.length_append, f1] at hw
      have hprog := receiveFrame_progress d
      rw [hi, f2, f3, f4] at hprog
      obtain ⟨fh, j, hj, e1, -, e2⟩ := hprog (by rw [List.length_append, f1]; omega)
        (by have := hw.1; omega)
        (fun r hr => hw.2 r (List.take_subset_take_left _ (by omega) hr))
      obtain rfl := (Res.ok.inj e1).symm
      rw [processFrame_eq] at e2
      change _ = ((processTable _ _ d.responseTable).1, _) at e2
      simp only [Client.consumed] at e2
      rw [htab, a4, hi, f5] at e2
      simp only at e2
      obtain ⟨gs, d', r1, r2, r3, r4⟩ := w2 _ rest
        (rfl : (Client.conn ⟨⟨wire ++ rest, d.conn.sent, d.conn.reads.drop j, d.conn.writes⟩,
          d.requestTable, c2.requestTable⟩).incoming = _) rfl
        ⟨by show _ ≤ (d.conn.reads.drop j).length
            rw [List.length_drop]; have := hw.1; omega,
         fun k hk => hw.2 k (by
          change k ∈ (d.conn.reads.drop j).take wire.length at hk
          rw [List.take_drop] at hk
          exact List.take_subset_take_left _ (by omega) (List.mem_of_mem_drop hk))⟩
      exact ⟨g :: gs, d', .cons _ _ _ _ _ e2 r1, .cons a5 r2, r3, r4⟩

/-- C47. No transport behaviour can make the receiver deliver anything else: the frames delivered
by the first calls that return are always the first frames sent; after all of them exactly the
octets sent are consumed and the tables agree. -/
theorem C47_any_transport [Platform] (c c' : Client) (fs : List Frame) (h : Sent c fs c') :
    ∃ wire, c'.conn.sent = c.conn.sent ++ wire ∧
      ∀ (d d' : Client) (rest : Bytes) (gs : List Frame), d.conn.incoming = wire ++ rest →
        d.responseTable = c.requestTable → Received d gs d' → gs.length ≤ fs.length →
        List.Forall₂ SameFrame (fs.take gs.length) gs ∧
        (gs.length = fs.length → d'.conn.incoming = rest ∧ d'.responseTable = c'.requestTable) := by
  induction h with
  | nil c =>
      refine ⟨[], by simp, fun d d' rest gs hi ht hr hl => ?_⟩
      cases hr with
      | nil => exact ⟨.nil, fun _ => ⟨hi, ht⟩⟩
      | cons => simp at hl
  | cons c c1 c2 c' f fs hf ht h1 h2 _ ih =>
      obtain ⟨wire, w1, w2⟩ := ih
      obtain ⟨type, flags, sid, payload, g, a1, a2, a3, a4, a5⟩ := sent_step hf ht h1 h2
      refine ⟨frameOctets type flags sid.toNat payload ++ wire, by rw [w1, a3, List.append_assoc],
        fun d d' rest gs hi htab hr hl => ?_⟩
      rw [List.append_assoc] at hi
      cases hr with
      | nil => exact ⟨.nil, fun h => by simp at h⟩
      | cons _ d1 _ g' gs hr1 hr2 =>
          rw [← htab] at a4
          obtain ⟨rfl, b2, b3⟩ := received_step a1 a2 hi a4 hr1
          obtain ⟨r1, r2⟩ := w2 d1 d' rest gs b2 b3 hr2 (by simpa using hl)
          exact ⟨.cons a5 r1, fun h => r2 (by simpa using h)⟩

/-! A concrete conversation: SETTINGS that changes the table size, HEADERS that inserts a header,
HEADERS that refers to it, DATA. -/

section Example

attribute [local instance] x86

/-- The header inserted by the first HEADERS frame. -/
def talkHeader : Header := (bstr "x-a", bstr "1")

/-- The two blocks. -/
def talkBlock1 : HeaderBlock := [⟨.indexed, .header (bstr ":method", bstr "GET")⟩,
  ⟨.incrementalIndexing, .header talkHeader⟩]
def talkBlock2 : HeaderBlock := [⟨.indexed, .header talkHeader⟩]

/-- The four frames. -/
def talk : List Frame := [
  .settings (SettingsFrame.new 0 0 [(1, 100)]),
  .headers ⟨[130, 64, 3, 120, 45, 97, 1, 49], ⟨8, 1, 4, 0, 1⟩, [], .zero, talkBlock1⟩,
  .headers ⟨[190], ⟨1, 1, 4, 0, 3⟩, [], .zero, talkBlock2⟩,
  .data (DataFrame.new 1 3 [104, 105])]

/-- The octets of `talk`. -/
def talkWire : Bytes := [0, 0, 6, 4, 0, 0, 0, 0, 0, 0, 1, 0, 0, 0, 100] ++
  [0, 0, 8, 1, 4, 0, 0, 0, 1, 130, 64, 3, 120, 45, 97, 1, 49] ++
  [0, 0, 1, 1, 4, 0, 0, 0, 3, 190] ++ [0, 0, 2, 0, 1, 0, 0, 0, 3, 104, 105]

example : Sent (Client.new ⟨[], [], [], List.replicate 53 1⟩) talk
    ⟨⟨[], talkWire, [], []⟩, ⟨[talkHeader], 36, 100⟩, .default⟩ := by
  refine .cons _ ⟨⟨[], talkWire.take 15, [], List.replicate 38 1⟩, .default, .default⟩
    ⟨⟨[], talkWire.take 15, [], List.replicate 38 1⟩, ⟨[], 0, 100⟩, .default⟩ _ _ _
    (.settings _ _ _ (by decide) (by unfold IsMap; decide)) (by decide)
    (by decide +kernel) (by decide +kernel) ?_
  refine .cons _ ⟨⟨[], talkWire.take 32, [], List.replicate 21 1⟩, ⟨[], 0, 100⟩, .default⟩
    ⟨⟨[], talkWire.take 32, [], List.replicate 21 1⟩, ⟨[talkHeader], 36, 100⟩, .default⟩ _ _ _
    (.headers 4 1 talkBlock1 .none [] .zero _ (by decide) ⟨?_, ?_⟩ (by decide) (fun _ => rfl)
      (by decide) (by decide) (fun _ => rfl) (by decide +kernel) (by decide)) (by decide)
    (by decide +kernel) (by decide +kernel) ?_
  · intro e he
    simp only [talkBlock1, List.mem_cons, List.not_mem_nil, or_false] at he
    rcases he with rfl | rfl
    · exact ⟨by decide, Or.inl (Or.inl ⟨by decide, 2, by decide +kernel⟩)⟩
    · exact ⟨by decide, Or.inr ⟨by decide, by decide +kernel, by decide +kernel, Or.inl rfl,
        Or.inl rfl⟩⟩
  · intro e he h hh hin
    simp only [talkBlock1, List.mem_cons, List.not_mem_nil, or_false] at he
    rcases he with rfl | rfl
    · rfl
    · injection hh with hh
      subst hh
      exfalso
      rcases hin with ⟨-, i, hi⟩ | hin
      · have : ∀ p ∈ staticTableEntries, p.2 ≠ talkHeader := by decide +kernel
        exact this _ (lookup_mem hi) rfl
      · simp at hin
  refine .cons _ ⟨⟨[], talkWire.take 42, [], List.replicate 11 1⟩, ⟨[talkHeader], 36, 100⟩, .default⟩
    ⟨⟨[], talkWire.take 42, [], List.replicate 11 1⟩, ⟨[talkHeader], 36, 100⟩, .default⟩ _ _ _
    (.headers 4 3 talkBlock2 .none [] .zero _ (by decide) ⟨?_, ?_⟩ (by decide) (fun _ => rfl)
      (by decide) (by decide) (fun _ => rfl) (by decide +kernel) (by decide)) (by decide)
    (by decide +kernel) (by decide +kernel) ?_
  · intro e he
    simp only [talkBlock2, List.mem_singleton] at he
    subst he
    exact ⟨by decide, Or.inl (Or.inr (by decide))⟩
  · intro e he h hh hin
    simp only [talkBlock2, List.mem_singleton] at he
    subst he
    rfl
  exact .cons _ ⟨⟨[], talkWire, [], []⟩, ⟨[talkHeader], 36, 100⟩, .default⟩ _ _ _ _
    (.data _ _ _ (by decide) (by decide)) (by decide) (by decide +kernel) (by decide +kernel) (.nil _)

/-- A receiver that gets the octets one at a time, then all at once. -/
example : Received (Client.new ⟨talkWire ++ [7], [], List.replicate 20 1 ++ List.replicate 40 99, []⟩)
    talk ⟨⟨[7], [], List.replicate 34 99, []⟩, .default, ⟨[talkHeader], 36, 100⟩⟩ := by
  refine .cons _ ⟨⟨talkWire.drop 15 ++ [7], [], List.replicate 5 1 ++ List.replicate 40 99, []⟩,
    .default, ⟨[], 0, 100⟩⟩ _ _ _ (by decide +kernel) ?_
  refine .cons _ ⟨⟨talkWire.drop 32 ++ [7], [], List.replicate 38 99, []⟩,
    .default, ⟨[talkHeader], 36, 100⟩⟩ _ _ _ (by decide +kernel) ?_
  refine .cons _ ⟨⟨talkWire.drop 42 ++ [7], [], List.replicate 36 99, []⟩,
    .default, ⟨[talkHeader], 36, 100⟩⟩ _ _ _ (by decide +kernel) ?_
  refine .cons _ ⟨⟨[7], [], List.replicate 34 99, []⟩,
    .default, ⟨[talkHeader], 36, 100⟩⟩ _ _ _ (by decide +kernel) ?_
  exact .nil _

end Example

end Mh2c
