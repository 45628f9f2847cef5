/-
Lemmas for C143 and C144.
-/
import Verif.Spec.Live
import Verif.Proofs.Transport
import Verif.Proofs.Client

namespace Mh2c

theorem readWaits_short (reads : List Nat) (incoming : Bytes) (n : Nat)
    (h : readWaits reads incoming n = true) : incoming.length < n := by
  induction reads generalizing incoming n with
  | nil => cases n <;> simp [readWaits] at h
  | cons r rs ih =>
      cases n with
      | zero => simp [readWaits] at h
      | succ n =>
          rw [readWaits] at h
          have hle := toIntLength_le (n + 1)
          by_cases h1 : min r (toIntLength (n + 1)) = 0
          · rw [if_pos h1] at h; cases h
          · rw [if_neg h1] at h
            by_cases h2 : incoming = []
            · rw [h2]; simp
            · rw [if_neg h2] at h
              have := ih _ _ h
              have := List.length_pos_of_ne_nil h2
              rw [List.length_drop] at *
              omega

/-- A read that does not wait is one with a transport that delivers the same parts, whatever comes later. -/
theorem readLoop_live (reads : List Nat) (incoming : Bytes) (n : Nat)
    (h : readWaits reads incoming n = false) :
    ∃ used, ∀ extra tail, readLoop (used ++ tail) (incoming ++ extra) n =
      ((readLoop reads incoming n).1, tail, (readLoop reads incoming n).2.2 ++ extra) := by
  induction reads generalizing incoming n with
  | nil =>
      cases n with
      | zero => exact ⟨[], fun extra tail => by simp [readLoop]⟩
      | succ n => exact ⟨[0], fun extra tail => by simp [readLoop]⟩
  | cons r rs ih =>
      cases n with
      | zero => exact ⟨[], fun extra tail => by simp [readLoop]⟩
      | succ n =>
          rw [readWaits] at h
          by_cases h1 : min r (toIntLength (n + 1)) = 0
          · refine ⟨[0], fun extra tail => ?_⟩
            have hk : min r (min (toIntLength (n + 1)) incoming.length) = 0 := by omega
            rw [readLoop, if_pos hk]
            simp [readLoop]
          · rw [if_neg h1] at h
            by_cases h2 : incoming = []
            · rw [if_pos h2] at h; cases h
            · rw [if_neg h2] at h
              have hpos := List.length_pos_of_ne_nil h2
              simp only at h
              rw [readLoop]
              generalize hkk : min r (min (toIntLength (n + 1)) incoming.length) = k at h
              have hk : k ≠ 0 := by omega
              rw [if_neg hk]
              obtain ⟨used, hu⟩ := ih _ _ h
              refine ⟨k :: used, fun extra tail => ?_⟩
              have hk' : min k (min (toIntLength (n + 1)) (incoming ++ extra).length) = k := by
                rw [List.length_append]; omega
              rw [List.cons_append, readLoop]
              simp only [hk']
              rw [if_neg hk, List.drop_append_of_le_length (by omega),
                List.take_append_of_le_length (by omega), hu extra tail]
              rcases readLoop rs (incoming.drop k) (n + 1 - k) with ⟨_ | _ | _ | _, rs', inc'⟩ <;> rfl

/-- A read that waits fails, if the server closes the connection instead. -/
theorem readLoop_closed (reads : List Nat) (incoming : Bytes) (n : Nat)
    (h : readWaits reads incoming n = true) :
    ∃ used, ∀ tail, readLoop (used ++ tail) incoming n = (.throw .runtimeError, tail, []) := by
  induction reads generalizing incoming n with
  | nil => cases n <;> simp [readWaits] at h
  | cons r rs ih =>
      cases n with
      | zero => simp [readWaits] at h
      | succ n =>
          rw [readWaits] at h
          by_cases h1 : min r (toIntLength (n + 1)) = 0
          · rw [if_pos h1] at h; cases h
          · rw [if_neg h1] at h
            by_cases h2 : incoming = []
            · exact ⟨[0], fun tail => by rw [h2]; simp [readLoop]⟩
            · rw [if_neg h2] at h
              have hpos := List.length_pos_of_ne_nil h2
              obtain ⟨used, hu⟩ := ih _ _ h
              refine ⟨r :: used, fun tail => ?_⟩
              rw [List.cons_append, readLoop, if_neg (by omega)]
              rw [hu]

/-- With a transport that works, a read waits if octets are missing. -/
theorem readWaits_of_short (reads : List Nat) (incoming : Bytes) (n : Nat)
    (hw : Willing reads n) (hn : n < 2 ^ 31) (h : incoming.length < n) :
    readWaits reads incoming n = true := by
  obtain ⟨hlen, hpos⟩ := hw
  induction reads generalizing incoming n with
  | nil => simp at hlen; omega
  | cons r rs ih =>
      cases n with
      | zero => omega
      | succ n =>
          have hr : 0 < r := hpos r (by simp)
          rw [readWaits, toIntLength_small hn, if_neg (by omega)]
          by_cases h2 : incoming = []
          · rw [if_pos h2]
          · rw [if_neg h2]
            have := List.length_pos_of_ne_nil h2
            simp only
            refine ih _ _ (by omega) (by rw [List.length_drop]; omega) (by simp at hlen; omega)
              fun x hx => hpos x ?_
            rw [List.take_succ_cons]
            exact List.mem_cons_of_mem _ ((List.take_subset_take_left rs (by omega)) hx)

/-- The call has the same result with some transport, when more octets come after those that are there. -/
def LiveCall {α : Type} (c : Client) (call : Client → Res α × Client) : Prop :=
  ∃ used, ∀ extra tail, call (c.fed (c.conn.incoming ++ extra) (used ++ tail)) =
    ((call c).1, (call c).2.fed ((call c).2.conn.incoming ++ extra) tail)

theorem liveCall_receiveRaw (c : Client) (n : Nat) (h : c.receiveRawWaits n = false) :
    LiveCall c (Client.receiveRawData · n) := by
  obtain ⟨used, hu⟩ := readLoop_live _ _ _ h
  refine ⟨used, fun extra tail => ?_⟩
  unfold Client.receiveRawData Conn.read Client.fed
  simp only [hu]

theorem fed_processFrame [Platform] (c : Client) (fh : FrameHeader) (raw : Bytes) (i : Bytes) (r : List Nat) :
    (c.fed i r).processFrame fh raw = ((c.processFrame fh raw).1, (c.processFrame fh raw).2.fed i r) := by
  rw [processFrame_eq, processFrame_eq]
  rfl

theorem liveCall_receiveFrame [Platform] (c : Client) (h : c.receiveFrameWaits = false) :
    LiveCall c Client.receiveFrame := by
  unfold Client.receiveFrameWaits at h
  by_cases h9 : c.receiveRawWaits 9 = true
  · rw [if_pos h9] at h; cases h
  rw [if_neg h9] at h
  obtain ⟨used, hu⟩ := liveCall_receiveRaw c 9 (by simpa using h9)
  simp only at hu
  rcases hc : c.receiveRawData 9 with ⟨raw | e | u | _, c1⟩ <;> rw [hc] at h hu
  · simp only at h hu
    cases hb : buildFrameHeader raw with
    | ok fh =>
        rw [hb] at h
        simp only at h
        by_cases h0 : fh.length.toNat > 0
        · rw [if_pos h0] at h
          obtain ⟨used2, hu2⟩ := liveCall_receiveRaw c1 _ h
          simp only at hu2
          refine ⟨used ++ used2, fun extra tail => ?_⟩
          unfold Client.receiveFrame
          rw [List.append_assoc, hu, hc]
          simp only [hb, if_pos h0]
          rw [hu2]
          rcases c1.receiveRawData fh.length.toNat with ⟨raw' | _ | _ | _, c2⟩
          · simp only
            rw [fed_processFrame, processFrame_eq]
          all_goals rfl
        · refine ⟨used, fun extra tail => ?_⟩
          unfold Client.receiveFrame
          rw [hu, hc]
          simp only [hb, if_neg h0]
          rw [fed_processFrame, processFrame_eq]
    | throw e => exact ⟨used, fun extra tail => by unfold Client.receiveFrame; rw [hu, hc]; simp only [hb]⟩
    | ub k => exact ⟨used, fun extra tail => by unfold Client.receiveFrame; rw [hu, hc]; simp only [hb]⟩
    | diverge => exact ⟨used, fun extra tail => by unfold Client.receiveFrame; rw [hu, hc]; simp only [hb]⟩
  all_goals exact ⟨used, fun extra tail => by unfold Client.receiveFrame; rw [hu, hc]⟩

theorem liveCall_sendRaw (c : Client) (data : Bytes) : LiveCall c (Client.sendRawData · data) :=
  ⟨[], fun _ _ => rfl⟩

theorem liveCall_sendFrame [Platform] (c : Client) (f : Frame) : LiveCall c (Client.sendFrame · f) := by
  refine ⟨[], fun extra tail => ?_⟩
  unfold Client.sendFrame
  cases f.serialize <;> rfl

theorem liveCall_size (c : Client) (n : Nat) : LiveCall c (Client.updateRequestTableSize · n) := by
  refine ⟨[], fun extra tail => ?_⟩
  unfold Client.updateRequestTableSize Client.fed
  simp only
  cases c.requestTable.updateTableSize n <;> rfl

theorem LiveCall.ended {α : Type} {c : Client} {call : Client → Res α × Client} (hc : LiveCall c call)
    {srv : Server} {n : Nat} {k : Except Exc α → Client → LiveRun}
    {run : Except Exc α → Client → Res Unit × Client}
    (hk : ∀ a c1 r c' said, k a c1 = .ended r c' said → ∃ used, ∀ extra tail,
      run a (c1.fed (c1.conn.incoming ++ said ++ extra) (used ++ tail)) =
        (r, c'.fed (c'.conn.incoming ++ extra) tail))
    {r : Res Unit} {c' : Client} {said : Bytes} (h : goOnLive srv n (call c) k = .ended r c' said) :
    ∃ used, ∀ extra tail, goOn (call (c.fed (c.conn.incoming ++ said ++ extra) (used ++ tail))) run =
      (r, c'.fed (c'.conn.incoming ++ extra) tail) := by
  obtain ⟨used, hu⟩ := hc
  rcases hcall : call c with ⟨a | e | u | _, c1⟩ <;> rw [hcall] at h hu
  · simp only [goOnLive] at h
    cases hk1 : k (.ok a) (c1.hears srv n) with
    | waiting w c2 s next => rw [hk1] at h; cases h
    | ended r2 c2 s =>
        rw [hk1] at h
        simp only [LiveRun.after, LiveRun.ended.injEq] at h
        obtain ⟨rfl, rfl, rfl⟩ := h
        obtain ⟨used2, hu2⟩ := hk _ _ _ _ _ hk1
        refine ⟨used ++ used2, fun extra tail => ?_⟩
        simp only [List.append_assoc]
        rw [hu]
        simp only [goOn]
        rw [← hu2 extra tail]
        simp only [Client.fed, Client.hears, List.append_assoc]
  · simp only [goOnLive] at h
    cases hk1 : k (.error e) (c1.hears srv n) with
    | waiting w c2 s next => rw [hk1] at h; cases h
    | ended r2 c2 s =>
        rw [hk1] at h
        simp only [LiveRun.after, LiveRun.ended.injEq] at h
        obtain ⟨rfl, rfl, rfl⟩ := h
        obtain ⟨used2, hu2⟩ := hk _ _ _ _ _ hk1
        refine ⟨used ++ used2, fun extra tail => ?_⟩
        simp only [List.append_assoc]
        rw [hu]
        simp only [goOn]
        rw [← hu2 extra tail]
        simp only [Client.fed, Client.hears, List.append_assoc]
  all_goals
    simp only [goOnLive, LiveRun.ended.injEq] at h
    obtain ⟨rfl, rfl, rfl⟩ := h
    refine ⟨used, fun extra tail => ?_⟩
    rw [List.append_nil, hu]
    rfl

theorem LiveCall.waiting {α : Type} {c : Client} {call : Client → Res α × Client} (hc : LiveCall c call)
    {srv : Server} {n : Nat} {k : Except Exc α → Client → LiveRun}
    {run : Except Exc α → Client → Res Unit × Client}
    {next : Exc → Prog} {rest : Client → Res Unit × Client}
    (hk : ∀ a c1 w c' said, k a c1 = .waiting w c' said next → ∃ used, ∀ tail,
      run a (c1.fed (c1.conn.incoming ++ said) (used ++ tail)) = rest (c'.fed [] tail))
    {w : Wanted} {c' : Client} {said : Bytes} (h : goOnLive srv n (call c) k = .waiting w c' said next) :
    ∃ used, ∀ tail, goOn (call (c.fed (c.conn.incoming ++ said) (used ++ tail))) run =
      rest (c'.fed [] tail) := by
  obtain ⟨used, hu⟩ := hc
  rcases hcall : call c with ⟨a | e | u | _, c1⟩ <;> rw [hcall] at h hu
  · simp only [goOnLive] at h
    cases hk1 : k (.ok a) (c1.hears srv n) with
    | ended r2 c2 s => rw [hk1] at h; cases h
    | waiting w2 c2 s next2 =>
        rw [hk1] at h
        simp only [LiveRun.after, LiveRun.waiting.injEq] at h
        obtain ⟨rfl, rfl, rfl, rfl⟩ := h
        obtain ⟨used2, hu2⟩ := hk _ _ _ _ _ hk1
        refine ⟨used ++ used2, fun tail => ?_⟩
        rw [List.append_assoc, hu]
        simp only [goOn]
        rw [← hu2]
        simp only [Client.fed, Client.hears, List.append_assoc]
  · simp only [goOnLive] at h
    cases hk1 : k (.error e) (c1.hears srv n) with
    | ended r2 c2 s => rw [hk1] at h; cases h
    | waiting w2 c2 s next2 =>
        rw [hk1] at h
        simp only [LiveRun.after, LiveRun.waiting.injEq] at h
        obtain ⟨rfl, rfl, rfl, rfl⟩ := h
        obtain ⟨used2, hu2⟩ := hk _ _ _ _ _ hk1
        refine ⟨used ++ used2, fun tail => ?_⟩
        rw [List.append_assoc, hu]
        simp only [goOn]
        rw [← hu2]
        simp only [Client.fed, Client.hears, List.append_assoc]
  all_goals cases h

theorem receiveRaw_closed (c : Client) (n : Nat) (h : c.receiveRawWaits n = true) :
    ∃ used, ∀ tail, (c.fed c.conn.incoming (used ++ tail)).receiveRawData n =
      (.throw .runtimeError, c.fed [] tail) := by
  obtain ⟨used, hu⟩ := readLoop_closed _ _ _ h
  refine ⟨used, fun tail => ?_⟩
  unfold Client.receiveRawData Conn.read Client.fed
  simp only [hu]

theorem receiveFrame_closed [Platform] (c : Client) (h : c.receiveFrameWaits = true) :
    ∃ used, ∀ tail, (c.fed c.conn.incoming (used ++ tail)).receiveFrame =
      (.throw .runtimeError, c.fed [] tail) := by
  unfold Client.receiveFrameWaits at h
  by_cases h9 : c.receiveRawWaits 9 = true
  · obtain ⟨used, hu⟩ := receiveRaw_closed c 9 h9
    refine ⟨used, fun tail => ?_⟩
    unfold Client.receiveFrame
    rw [hu]
  rw [if_neg h9] at h
  obtain ⟨used, hu⟩ := liveCall_receiveRaw c 9 (by simpa using h9)
  simp only at hu
  rcases hc : c.receiveRawData 9 with ⟨raw | e | u | _, c1⟩ <;> rw [hc] at h hu
  · simp only at h hu
    cases hb : buildFrameHeader raw with
    | ok fh =>
        rw [hb] at h
        simp only at h
        by_cases h0 : fh.length.toNat > 0
        · rw [if_pos h0] at h
          obtain ⟨used2, hu2⟩ := receiveRaw_closed c1 _ h
          refine ⟨used ++ used2, fun tail => ?_⟩
          have hu := hu [] (used2 ++ tail)
          rw [List.append_nil, List.append_nil] at hu
          have hf : c1.fed [] tail = c.fed [] tail := by
            have : c1 = (c.receiveRawData 9).2 := by rw [hc]
            rw [this]
            rfl
          unfold Client.receiveFrame
          rw [List.append_assoc, hu]
          simp only [hb, if_pos h0]
          rw [hu2, hf]
        · rw [if_neg h0] at h; cases h
    | throw e => rw [hb] at h; cases h
    | ub k => rw [hb] at h; cases h
    | diverge => rw [hb] at h; cases h
  all_goals cases h

end Mh2c
