/-
Properties C143 and C144: programs with a server that answers what it is sent.
-/
import Verif.Proofs.Live
import Verif.Props.Client

namespace Mh2c

theorem Willing.part {s : List Nat} {n m j : Nat} (h : Willing s n) (hm : j + m ≤ n) : Willing (s.drop j) m := by
  obtain ⟨h1, h2⟩ := h
  refine ⟨by rw [List.length_drop]; omega, fun k hk => h2 k ?_⟩
  rw [List.take_drop] at hk
  exact List.take_subset_take_left s (by omega) (List.mem_of_mem_drop hk)

/-- C143, the calls. A call that receives waits only if octets of what it is to receive have not been sent. If the
transport works, it waits exactly then; if it does not wait then, it ends with `runtime_error`. It does not wait if the number
of octets asked for is not a positive `int`. -/
theorem C143_calls [Platform] (c : Client) :
    (∀ n, c.receiveRawWaits n = true → c.conn.incoming.length < n) ∧
    (∀ n, n < 2 ^ 31 → Willing c.conn.reads n →
      (c.receiveRawWaits n = true ↔ c.conn.incoming.length < n)) ∧
    (∀ n, 2 ^ 31 ≤ n % 2 ^ 32 ∨ n % 2 ^ 32 = 0 → c.receiveRawWaits n = false) ∧
    (c.receiveFrameWaits = true → c.conn.incoming.length < frameLength c.conn.incoming) ∧
    (Willing c.conn.reads (frameLength c.conn.incoming) →
      (c.receiveFrameWaits = true ↔ c.conn.incoming.length < frameLength c.conn.incoming)) ∧
    (c.receiveFrameWaits = false → c.conn.incoming.length < frameLength c.conn.incoming →
      c.receiveFrame.1 = .throw .runtimeError) := by
  have hraw : ∀ n, c.receiveRawWaits n = true → c.conn.incoming.length < n := fun n h => readWaits_short _ _ _ h
  have hframe : c.receiveFrameWaits = true → c.conn.incoming.length < frameLength c.conn.incoming := by
    intro h
    unfold Client.receiveFrameWaits at h
    unfold frameLength announced
    by_cases h9 : c.receiveRawWaits 9 = true
    · have := hraw 9 h9
      omega
    rw [if_neg h9] at h
    unfold Client.receiveRawData Conn.read at h
    obtain ⟨r1, -, ⟨h1, -, h3⟩ | ⟨k, -, -, h3⟩⟩ := readLoop_spec c.conn.reads c.conn.incoming 9
    · rw [h3] at h
      obtain ⟨fh, hf, hl⟩ := announced_eq h1
      simp only [hf] at h
      split at h
      · have := readWaits_short _ _ _ h
        simp only [List.length_drop] at this
        omega
      · cases h
    · rw [h3] at h
      cases h
  refine ⟨hraw, fun n hn hw => ⟨hraw n, fun h => readWaits_of_short _ _ _ hw hn h⟩, fun n hn => ?_,
    hframe, fun hw => ⟨hframe, fun h => ?_⟩, fun _ h => ?_⟩
  · unfold Client.receiveRawWaits
    have h0 : toIntLength n = 0 := by unfold toIntLength; split <;> omega
    rcases c.conn.reads with _ | ⟨r, rs⟩ <;> cases n <;> rw [readWaits]
    rw [if_pos (by omega)]
  · unfold Client.receiveFrameWaits
    by_cases h9 : c.receiveRawWaits 9 = true
    · rw [if_pos h9]
    rw [if_neg h9]
    unfold frameLength announced at h hw
    have h1 : 9 ≤ c.conn.incoming.length := by
      by_contra hlt
      exact h9 (readWaits_of_short _ _ _ (hw.part (j := 0) (by omega)) (by omega) (by omega))
    obtain ⟨fh, hf, hl⟩ := announced_eq h1
    have hw9 : Willing c.conn.reads 9 := hw.part (j := 0) (by omega)
    obtain ⟨j, hj, h3⟩ := readLoop_progress c.conn.reads c.conn.incoming 9 hw9.2 hw9.1 (by omega) h1
    unfold Client.receiveRawData Conn.read
    simp only [h3, hf]
    rw [if_pos (by omega)]
    have := take_beValue_lt (raw := c.conn.incoming) 3
    refine readWaits_of_short _ _ _ ?_ (by omega) ?_
    · rw [hl]
      exact hw.part (by omega)
    · simp only [List.length_drop]
      omega
  · unfold frameLength announced at h
    obtain ⟨r, -, ⟨k, -, -, h1⟩ | ⟨fh, -, -, h1, -⟩⟩ := receiveFrame_cases c
    · rw [h1]
    · omega

/-- C143. A program waits for ever only where the server, which has been sent everything the program has sent, and
has sent everything it sends in reply, has not sent all of the frame (or of the octets) that the program is to
receive. -/
theorem C143_programs [Platform] (srv : Server) (p : Prog) (n : Nat) (c c' : Client) (w : Wanted) (said : Bytes)
    (next : Exc → Prog) (h : p.live srv n c = .waiting w c' said next) : w.missing c'.conn.incoming := by
  have step : ∀ {α : Type} {x : Res α × Client} {k : Except Exc α → Client → LiveRun} {n : Nat}
      {said : Bytes},
      goOnLive srv n x k = .waiting w c' said next →
      (∀ a c1 said, k a c1 = .waiting w c' said next → w.missing c'.conn.incoming) → w.missing c'.conn.incoming := by
    intro α x k n said h hk
    rcases x with ⟨a | e | u | _, c1⟩
    · simp only [goOnLive] at h
      cases hk1 : k (.ok a) (c1.hears srv n) with
      | ended r2 c2 s => rw [hk1] at h; cases h
      | waiting w2 c2 s next2 =>
          rw [hk1] at h
          simp only [LiveRun.after, LiveRun.waiting.injEq] at h
          obtain ⟨rfl, rfl, -, rfl⟩ := h
          exact hk _ _ _ hk1
    · simp only [goOnLive] at h
      cases hk1 : k (.error e) (c1.hears srv n) with
      | ended r2 c2 s => rw [hk1] at h; cases h
      | waiting w2 c2 s next2 =>
          rw [hk1] at h
          simp only [LiveRun.after, LiveRun.waiting.injEq] at h
          obtain ⟨rfl, rfl, -, rfl⟩ := h
          exact hk _ _ _ hk1
    all_goals cases h
  induction p generalizing c n said with
  | done => cases h
  | throws e => cases h
  | preface k ih => exact step h fun o c1 s h1 => ih o _ _ _ h1
  | sendRaw data k ih => exact step h fun o c1 s h1 => ih o _ _ _ h1
  | sendFrame f k ih => exact step h fun o c1 s h1 => ih o _ _ _ h1
  | report b k ih => exact step h fun o c1 s h1 => ih o _ _ _ h1
  | setSize l k ih => exact step h fun o c1 s h1 => ih o _ _ _ h1
  | own k ih => exact ih _ _ _ _ h
  | receiveRaw l k ih =>
      unfold Prog.live at h
      by_cases hw : c.receiveRawWaits l = true
      · rw [if_pos hw] at h
        cases h
        exact (C143_calls _).1 l hw
      · rw [if_neg hw] at h
        exact step h fun a c1 s h1 => ih _ _ _ _ h1
  | receiveFrame k ih =>
      unfold Prog.live at h
      by_cases hw : c.receiveFrameWaits = true
      · rw [if_pos hw] at h
        cases h
        exact (C143_calls _).2.2.2.1 hw
      · rw [if_neg hw] at h
        exact step h fun a c1 s h1 => ih _ _ _ _ h1

attribute [local instance] x86 in
/-- Non-vacuity of `C143_calls`: a client that has part of a frame waits for the rest of it, one with a whole frame
does not, and one whose server has closed the connection does not. -/
example : (Client.new ⟨[0, 0, 2, 0, 1, 0, 0, 0, 1, 104], [], [9, 9, 9], []⟩).receiveFrameWaits = true ∧
    (Client.new ⟨[0, 0, 2, 0, 1, 0, 0, 0, 1, 104, 105], [], [9, 9, 9], []⟩).receiveFrameWaits = false ∧
    (Client.new ⟨[0, 0, 2, 0, 1, 0, 0, 0, 1, 104], [], [9, 9, 0], []⟩).receiveFrameWaits = false ∧
    Willing (List.replicate 11 9) (frameLength [0, 0, 2, 0, 1, 0, 0, 0, 1, 104]) := by
  decide +kernel

/-- What can be compared of a run, for the examples. -/
def LiveRun.seen : LiveRun → Option (Res Unit) × Option Wanted × Client × Bytes
  | .ended r c said => (some r, none, c, said)
  | .waiting w c said _ => (none, some w, c, said)

/-- A server for the examples: it acknowledges a frame once it has been sent more than the preface. -/
def acknowledges : Server := fun _ sent => if sent.length > 24 then [0, 0, 0, 4, 1, 0, 0, 0, 0] else []

/-- A program for the examples: it sends the preface and SETTINGS, and then receives a frame. -/
def asksOnce : Prog :=
  .preface fun _ => .sendRaw [0, 0, 0, 4, 0, 0, 0, 0, 0] fun _ => .receiveFrame fun
    | .ok _ => .done
    | .error e => .throws e

/-- The same program, where SETTINGS has been forgotten. -/
def asksNothing : Prog := .preface fun _ => .receiveFrame fun
  | .ok _ => .done
  | .error e => .throws e

attribute [local instance] x86 in
/-- Non-vacuity of `C143_programs`, `C144_ended` and `C144_waiting`: a program that is answered and ends, and one
that waits for ever because the server waits, too. -/
example : let c := Client.new ⟨[], [], [5, 9, 9], [100, 100, 100]⟩
    (asksOnce.live acknowledges 0 c).seen =
      (some (.ok ()), none, Client.new ⟨[0, 0, 0, 4, 1, 0, 0, 0, 0],
        bstr "PRI * HTTP/2.0\r\n\r\nSM\r\n\r\n" ++ [0, 0, 0, 4, 0, 0, 0, 0, 0], [9], [100]⟩,
        [0, 0, 0, 4, 1, 0, 0, 0, 0] ++ [0, 0, 0, 4, 1, 0, 0, 0, 0]) ∧
    (asksNothing.live acknowledges 0 c).seen = (none, some .frame, c.sendConnectionPreface.2, []) := by
  decide +kernel

/-- C144. A run that ends, with a server that answers, is a run with a server that sends all the same octets at once
and does not wait for any, over a transport that delivers them in suitable parts: it ends in the same way, has sent
the same, leaves the same tables, and the same octets that have not been received. -/
theorem C144_ended [Platform] (srv : Server) (p : Prog) (n : Nat) (c c' : Client) (r : Res Unit) (said : Bytes)
    (h : p.live srv n c = .ended r c' said) :
    ∃ reads, ∀ extra later, p.run (c.fed (c.conn.incoming ++ said ++ extra) (reads ++ later)) =
      (r, c'.fed (c'.conn.incoming ++ extra) later) := by
  induction p generalizing c n r c' said with
  | done => cases h; exact ⟨[], fun extra tail => by rw [List.append_nil]; rfl⟩
  | throws e => cases h; exact ⟨[], fun extra tail => by rw [List.append_nil]; rfl⟩
  | preface k ih =>
      exact (liveCall_sendRaw c _).ended (run := fun o => (k o).run)
        (fun o _ _ _ _ h => ih o _ _ _ _ _ h) h
  | sendRaw data k ih =>
      exact (liveCall_sendRaw c _).ended (run := fun o => (k o).run)
        (fun o _ _ _ _ h => ih o _ _ _ _ _ h) h
  | sendFrame f k ih =>
      exact (liveCall_sendFrame c f).ended (run := fun o => (k o).run)
        (fun o _ _ _ _ h => ih o _ _ _ _ _ h) h
  | report b k ih =>
      exact LiveCall.ended (call := (Client.updateRequestDynamicTable · b)) ⟨[], fun _ _ => rfl⟩
        (run := fun o => (k o).run)
        (fun o _ _ _ _ h => ih o _ _ _ _ _ h) h
  | setSize l k ih =>
      exact (liveCall_size c l).ended (run := fun o => (k o).run)
        (fun o _ _ _ _ h => ih o _ _ _ _ _ h) h
  | own k ih => exact ih _ _ _ _ _ _ h
  | receiveRaw l k ih =>
      unfold Prog.live at h
      by_cases hw : c.receiveRawWaits l = true
      · rw [if_pos hw] at h; cases h
      · rw [if_neg hw] at h
        exact (liveCall_receiveRaw c l (by simpa using hw)).ended (run := fun a => (k a).run)
          (fun _ _ _ _ _ h => ih _ _ _ _ _ _ h) h
  | receiveFrame k ih =>
      unfold Prog.live at h
      by_cases hw : c.receiveFrameWaits = true
      · rw [if_pos hw] at h; cases h
      · rw [if_neg hw] at h
        exact (liveCall_receiveFrame c (by simpa using hw)).ended (run := fun a => (k a).run)
          (fun _ _ _ _ _ h => ih _ _ _ _ _ _ h) h

/-- C144. If the server closes the connection where the program would wait for ever, the program goes on as it does
when `runtime_error` is thrown by the call: it has received everything the server has sent, and has not sent anything
more. -/
theorem C144_waiting [Platform] (srv : Server) (p : Prog) (n : Nat) (c c' : Client) (w : Wanted) (said : Bytes)
    (next : Exc → Prog) (h : p.live srv n c = .waiting w c' said next) :
    ∃ reads, ∀ later, p.run (c.fed (c.conn.incoming ++ said) (reads ++ later)) =
      (next .runtimeError).run (c'.fed [] later) := by
  induction p generalizing c n w c' said with
  | done => cases h
  | throws e => cases h
  | preface k ih =>
      exact (liveCall_sendRaw c _).waiting (run := fun o => (k o).run) (rest := (next .runtimeError).run)
        (fun o _ _ _ _ h => ih o _ _ _ _ _ h) h
  | sendRaw data k ih =>
      exact (liveCall_sendRaw c _).waiting (run := fun o => (k o).run) (rest := (next .runtimeError).run)
        (fun o _ _ _ _ h => ih o _ _ _ _ _ h) h
  | sendFrame f k ih =>
      exact (liveCall_sendFrame c f).waiting (run := fun o => (k o).run) (rest := (next .runtimeError).run)
        (fun o _ _ _ _ h => ih o _ _ _ _ _ h) h
  | report b k ih =>
      exact LiveCall.waiting (call := (Client.updateRequestDynamicTable · b)) ⟨[], fun _ _ => rfl⟩
        (run := fun o => (k o).run) (rest := (next .runtimeError).run)
        (fun o _ _ _ _ h => ih o _ _ _ _ _ h) h
  | setSize l k ih =>
      exact (liveCall_size c l).waiting (run := fun o => (k o).run) (rest := (next .runtimeError).run)
        (fun o _ _ _ _ h => ih o _ _ _ _ _ h) h
  | own k ih => exact ih _ _ _ _ _ _ h
  | receiveRaw l k ih =>
      unfold Prog.live at h
      by_cases hw : c.receiveRawWaits l = true
      · rw [if_pos hw] at h
        cases h
        obtain ⟨used, hu⟩ := receiveRaw_closed c l hw
        refine ⟨used, fun later => ?_⟩
        rw [List.append_nil]
        show goOn _ _ = _
        rw [hu]
        rfl
      · rw [if_neg hw] at h
        exact (liveCall_receiveRaw c l (by simpa using hw)).waiting (run := fun a => (k a).run) (rest := (next .runtimeError).run)
          (fun _ _ _ _ _ h => ih _ _ _ _ _ _ h) h
  | receiveFrame k ih =>
      unfold Prog.live at h
      by_cases hw : c.receiveFrameWaits = true
      · rw [if_pos hw] at h
        cases h
        obtain ⟨used, hu⟩ := receiveFrame_closed c hw
        refine ⟨used, fun later => ?_⟩
        rw [List.append_nil]
        show goOn _ _ = _
        rw [hu]
        rfl
      · rw [if_neg hw] at h
        exact (liveCall_receiveFrame c (by simpa using hw)).waiting (run := fun a => (k a).run) (rest := (next .runtimeError).run)
          (fun _ _ _ _ _ h => ih _ _ _ _ _ _ h) h

/-- C144, the other way round: with a server that has sent everything at the beginning, a program runs as it does in
the theorems about such servers, or waits for ever. -/
theorem C144_silent [Platform] (p : Prog) (n : Nat) (c : Client) :
    p.live (fun _ _ => []) n c = .ended (p.run c).1 (p.run c).2 [] ∨
      ∃ w c' next, p.live (fun _ _ => []) n c = .waiting w c' [] next := by
  have hears : ∀ n (c : Client), c.hears (fun _ _ => []) n = c := by
    intro n c
    unfold Client.hears
    simp only [List.append_nil]
  have step : ∀ {α : Type} (x : Res α × Client) (n : Nat) (k : Except Exc α → Client → LiveRun)
      (run : Except Exc α → Client → Res Unit × Client),
      (∀ a c, k a c = .ended (run a c).1 (run a c).2 [] ∨
        ∃ w c' next, k a c = .waiting w c' [] next) →
      goOnLive (fun _ _ => []) n x k = .ended (goOn x run).1 (goOn x run).2 [] ∨
        ∃ w c' next, goOnLive (fun _ _ => []) n x k = .waiting w c' [] next := by
    intro α x n k run hk
    rcases x with ⟨a | e | u | _, c1⟩
    · simp only [goOnLive, goOn, hears]
      rcases hk (.ok a) c1 with h | ⟨w, c', next, h⟩ <;> rw [h]
      · exact Or.inl rfl
      · exact Or.inr ⟨w, c', next, rfl⟩
    · simp only [goOnLive, goOn, hears]
      rcases hk (.error e) c1 with h | ⟨w, c', next, h⟩ <;> rw [h]
      · exact Or.inl rfl
      · exact Or.inr ⟨w, c', next, rfl⟩
    all_goals exact Or.inl rfl
  induction p generalizing c n with
  | done => exact Or.inl rfl
  | throws e => exact Or.inl rfl
  | preface k ih => exact step _ n _ (fun o => (k o).run) fun o _ => ih o _ _
  | sendRaw data k ih => exact step _ n _ (fun o => (k o).run) fun o _ => ih o _ _
  | sendFrame f k ih => exact step _ n _ (fun o => (k o).run) fun o _ => ih o _ _
  | report b k ih => exact step _ n _ (fun o => (k o).run) fun o _ => ih o _ _
  | setSize l k ih => exact step _ n _ (fun o => (k o).run) fun o _ => ih o _ _
  | own k ih => exact ih _ _ _
  | receiveRaw l k ih =>
      unfold Prog.live
      by_cases hw : c.receiveRawWaits l = true
      · rw [if_pos hw]; exact Or.inr ⟨_, _, _, rfl⟩
      · rw [if_neg hw]; exact step _ n _ (fun a => (k a).run) fun _ _ => ih _ _ _
  | receiveFrame k ih =>
      unfold Prog.live
      by_cases hw : c.receiveFrameWaits = true
      · rw [if_pos hw]; exact Or.inr ⟨_, _, _, rfl⟩
      · rw [if_neg hw]; exact step _ n _ (fun a => (k a).run) fun _ _ => ih _ _ _

attribute [local instance] x86 in
/-- `C144_silent` in both cases. -/
example : let c := Client.new ⟨[0, 0, 0, 4, 1, 0, 0, 0, 0, 0], [], [5, 9, 9, 9], [100]⟩
    (asksNothing.live (fun _ _ => []) 0 c).seen = (some (.ok ()), none, (asksNothing.run c).2, []) ∧
    ((Prog.receiveFrame fun _ => asksNothing).live (fun _ _ => []) 0 c).seen.2.1 = some .frame := by
  decide +kernel

end Mh2c
