import Verif.Props.Sample
import Verif.Spec.Duties

/-! C108 and C109: what the sample owes the server. -/

namespace Mh2c.Sample

open Rfc

/-- C108. However far the sample has come, and whatever the server and the transport do, the window
it has granted for the connection is the initial one. So the server may send 65535 octets of DATA.
Missing: more octets, see `C108_long_response_violated`. -/
theorem C108_window_partial [Platform] (conn : Conn) (cout : Stream) (hs : conn.sent = []) :
    connectionWindow (readByServer (main ⟨Client.new conn, cout⟩).2.client.conn.sent) = 65535 := by
  obtain ⟨p, hp, h⟩ := C72_any_run conn cout
  rw [h, hs, List.nil_append]
  have hall : ∀ n ∈ List.range (sequence.length + 1),
      connectionWindow (readByServer (sequence.take n)) = 65535 := by decide +kernel
  rw [List.prefix_iff_eq_take.1 hp]
  refine hall _ (List.mem_range.2 ?_)
  have := hp.length_le
  omega

/-- C108 is false of the code: a run of the sample that ends normally has received at most 65535
octets of DATA, if the server keeps to the window the sample has granted (RFC 7540 6.9). A longer
response does not arrive. -/
theorem C108_long_response_violated [Platform] (conn : Conn) (cout : Stream) (hs : conn.sent = [])
    (s' : State) (h : main ⟨Client.new conn, cout⟩ = (.ok (), s')) :
    ∃ frames c, Received (Client.new conn) frames c ∧
      c.conn.incoming = s'.client.conn.incoming ∧ Prints frames cout s'.cout ∧
      (65535 < dataOctets frames →
        connectionWindow (readByServer s'.client.conn.sent) < dataOctets frames) := by
  obtain ⟨first, gs, g, c, h1, h2, -, -, h5, -⟩ := C72_normal_run conn cout s' h
  refine ⟨_, c, h1, h5.symm, h2, ?_⟩
  have := C108_window_partial conn cout hs
  rw [h] at this
  rw [this]
  exact id

attribute [local instance] x86 in
/-- A run with 1 octet of DATA. -/
example : let s : State := ⟨Client.new ⟨[0, 0, 0, 4, 0, 0, 0, 0, 0, 0, 0, 1, 0, 1, 0, 0, 0, 1, 105], [],
      [9, 9, 9], [100, 100, 100, 100, 100]⟩, ⟨[], false⟩⟩
    s.client.conn.sent = [] ∧ (main s).1 = .ok () ∧
    (readByServer (main s).2.client.conn.sent).map (·.type) = [4, 4, 1, 7] := by decide +kernel

/-- The window does depend on what is sent. -/
example : connectionWindow (wireFrames ([0, 0, 4, 8, 0, 0, 0, 0, 0] ++ [0, 1, 0, 0] ++
    [0, 0, 4, 8, 0, 0, 0, 0, 1] ++ [0, 2, 0, 0])) = 65535 + 65536 := by decide +kernel

theorem filterMap_nil_iff {α β : Type} {f : α → Option β} {l : List α} :
    [] = l.filterMap f ↔ ∀ a ∈ l, f a = none := by
  rw [eq_comm, List.filterMap_eq_nil_iff]

/-- C109. A run of the sample that ends normally has answered everything the server asked for, if
and only if the server has sent SETTINGS exactly once and no PING (acknowledgements not counted).
Missing: answers to every other sequence of frames, see `C109_unanswered_violated`. -/
theorem C109_answered_partial [Platform] (conn : Conn) (cout : Stream) (hs : conn.sent = [])
    (s' : State) (h : main ⟨Client.new conn, cout⟩ = (.ok (), s')) :
    ∃ frames c, Received (Client.new conn) frames c ∧
      c.conn.incoming = s'.client.conn.incoming ∧ Prints frames cout s'.cout ∧
      (Answered frames (readByServer s'.client.conn.sent) ↔
        (frames.filter AsksSettings).length = 1 ∧ ∀ f ∈ frames, AsksPing f = false) := by
  obtain ⟨first, gs, g, c, h1, h2, -, -, h5, -, h6⟩ := C72_normal_run conn cout s' h
  refine ⟨_, c, h1, h5.symm, h2, ?_⟩
  rw [hs] at h6
  have h4 : ((readByServer s'.client.conn.sent).filter
      fun f => f.type = 4 ∧ f.flags.toNat.testBit 0).length = 1 := by
    rw [h6]; split <;> decide +kernel
  have h7 : ((readByServer s'.client.conn.sent).filter
      fun f => f.type = 6 ∧ f.flags.toNat.testBit 0).map (·.payload) = [] := by
    rw [h6]; split <;> decide +kernel
  unfold Answered
  rw [h4, h7, eq_comm (a := 1), pingData, filterMap_nil_iff]
  refine and_congr_right fun _ => forall₂_congr fun f _ => ?_
  cases f with
  | ping p => cases hp : AsksPing (.ping p) <;> simp [hp]
  | _ => simp [AsksPing]

attribute [local instance] x86 in
/-- C109 is false of the code: the server sends SETTINGS, PING and a response of one octet. The run
ends normally, the PING was received and printed, and the server has read no PING frame. -/
theorem C109_unanswered_violated :
    let s : State := ⟨Client.new ⟨[0, 0, 0, 4, 0, 0, 0, 0, 0] ++
      [0, 0, 8, 6, 0, 0, 0, 0, 0, 1, 2, 3, 4, 5, 6, 7, 8] ++ [0, 0, 1, 0, 1, 0, 0, 0, 1, 105], [],
      [9, 9, 9, 9, 9], [100, 100, 100, 100, 100]⟩, ⟨[], false⟩⟩
    (main s).1 = .ok () ∧ (main s).2.client.conn.incoming = [] ∧
    (readByServer (main s).2.client.conn.sent).map (·.type) = [4, 4, 1, 7] := by decide +kernel

attribute [local instance] x86 in
/-- C109 is false of the code: the server changes its SETTINGS before the response. It reads two
SETTINGS frames, of which one is an acknowledgement. -/
theorem C109_second_settings_violated :
    let s : State := ⟨Client.new ⟨[0, 0, 0, 4, 0, 0, 0, 0, 0] ++
      [0, 0, 6, 4, 0, 0, 0, 0, 0, 0, 3, 0, 0, 0, 100] ++ [0, 0, 1, 0, 1, 0, 0, 0, 1, 105], [],
      [9, 9, 9, 9, 9], [100, 100, 100, 100, 100]⟩, ⟨[], false⟩⟩
    (main s).1 = .ok () ∧ (main s).2.client.conn.incoming = [] ∧
    ((readByServer (main s).2.client.conn.sent).filter fun f => f.type = 4).map (·.flags) =
      [0, 1] := by decide +kernel

attribute [local instance] x86 in
/-- SETTINGS once and no PING: everything is answered. -/
example : let s : State := ⟨Client.new ⟨[0, 0, 0, 4, 0, 0, 0, 0, 0, 0, 0, 1, 0, 1, 0, 0, 0, 1, 105], [],
      [9, 9, 9], [100, 100, 100, 100, 100]⟩, ⟨[], false⟩⟩
    Answered [.settings (SettingsFrame.new 0 0 []), .data (DataFrame.new 1 1 [105])]
      (readByServer (main s).2.client.conn.sent) := by
  unfold Answered
  decide +kernel

end Mh2c.Sample
