/-
C137: the sample program from beginning to end, also when it fails.
-/
import Verif.Props.What

namespace Mh2c.Sample

open Rfc Told

/-! ## C137 -/

/-- A statement with the texts does what the statement without does. -/
def Agrees {α : Type} (t : State → Told α × State) (m : State → Res α × State) : Prop :=
  ∀ s, (t s).1.toRes = (m s).1 ∧ (t s).2.client = (m s).2.client ∧
    ∀ a, (m s).1 = .ok a → (t s).2 = (m s).2

theorem Agrees.andThen {α β : Type} {t : State → Told α × State} {m : State → Res α × State}
    {u : α → State → Told β × State} {k : α → State → Res β × State} (h : Agrees t m)
    (hk : ∀ a, Agrees (u a) (k a)) : Agrees (andThenTold t u) (Sample.andThen m k) := by
  intro s
  obtain ⟨h1, h2, h3⟩ := h s
  unfold andThenTold Sample.andThen
  rcases ht : t s with ⟨a | ⟨e, w⟩ | x | _, s1⟩ <;> rcases hm : m s with ⟨a' | e' | x' | _, s2⟩ <;>
    rw [ht, hm] at h1 h2 h3 <;> cases h1
  · have := h3 a rfl
    simp only at this
    subst this
    exact hk a s1
  · exact ⟨rfl, h2, nofun⟩
  · exact ⟨rfl, h2, nofun⟩
  · exact ⟨rfl, h2, nofun⟩

theorem Agrees.onClient {α : Type} {t : Client → Told α × Client} {m : Client → Res α × Client}
    (h : ∀ c, ((t c).1.toRes, (t c).2) = m c) : Agrees (onClientTold t) (Sample.onClient m) := by
  intro s
  have := h s.client
  unfold onClientTold Sample.onClient
  rw [← this]
  exact ⟨rfl, rfl, fun _ _ => rfl⟩

theorem agrees_receive [Platform] (o : Outside) :
    Agrees (receiveTold o) (Sample.onClient Client.receiveFrame) := by
  intro s
  have h := Client.receiveFrameTold_toRes s.client
  have hc : (receiveTold o s).1 = s.client.receiveFrameTold.1 ∧
      (receiveTold o s).2.client = s.client.receiveFrameTold.2.1 := ⟨rfl, rfl⟩
  refine ⟨?_, ?_, ?_⟩
  · rw [hc.1]; exact congrArg Prod.fst h
  · rw [hc.2]; exact congrArg Prod.snd h
  · intro f hf
    have hr : s.client.receiveFrame = (.ok f, s.client.receiveFrame.2) := by
      unfold Sample.onClient at hf
      rw [← hf]
    unfold receiveTold
    rw [received_told hr]
    unfold Sample.onClient
    rfl

theorem agrees_loop [Platform] (o : Outside) : Agrees (receiveFramesTold o) receiveFrames := by
  intro s
  obtain ⟨h1, h2, h3⟩ := loop_told o s
  rcases hr : receiveFrames s with ⟨ty | e | k | _, s'⟩
  · rw [h1 _ _ hr]; exact ⟨rfl, rfl, fun _ _ => rfl⟩
  · obtain ⟨w, c, -, -, h⟩ := h2 _ _ hr
    rw [h]; exact ⟨rfl, rfl, nofun⟩
  · obtain ⟨out, h⟩ := h3 _ _ hr
    rw [h]; exact ⟨rfl, rfl, nofun⟩
  · have := C66_ends s
    rw [hr] at this
    exact absurd rfl this

theorem agrees_main [Platform] (o : Outside) : Agrees (mainTold o) main := by
  have send : ∀ f, Agrees (onClientTold (·.sendFrameTold f)) (Sample.onClient (·.sendFrame f)) :=
    fun f => .onClient fun c => Client.sendFrameTold_toRes c f
  unfold mainTold main
  refine .andThen (.onClient fun c => ?_) fun _ => (send _).andThen fun _ =>
    .andThen (.onClient fun c => ?_) fun _ => (agrees_receive o).andThen fun f => .andThen ?_ fun _ =>
    (send _).andThen fun _ => .andThen ?_ fun hf => (send _).andThen fun _ =>
    .andThen (.onClient fun c => ?_) fun _ => (agrees_loop o).andThen fun last => ?_
  · exact Prod.ext (toRes_saying _ _) rfl
  · exact Prod.ext (toRes_saying _ _) rfl
  · exact fun s => ⟨toRes_saying _ _, rfl, fun _ _ => rfl⟩
  · exact fun s => ⟨toRes_saying _ _, rfl, fun _ _ => rfl⟩
  · exact Client.updateRequestDynamicTableTold_toRes c _
  · split
    · exact send _
    · exact fun s => ⟨rfl, rfl, fun _ _ => rfl⟩

theorem andThenTold_throw {α β : Type} {f : State → Told α × State}
    {g : α → State → Told β × State} {s s' : State} {e : Exc} {w : What}
    (h : andThenTold f g s = (.throw e w, s')) :
    f s = (.throw e w, s') ∨ ∃ a s1, f s = (.ok a, s1) ∧ g a s1 = (.throw e w, s') := by
  unfold andThenTold at h
  rcases hf : f s with ⟨a | ⟨e, w⟩ | k | _, s1⟩ <;> rw [hf] at h
  · exact Or.inr ⟨a, s1, rfl, h⟩
  · left; obtain ⟨a, b⟩ := Prod.mk.inj h; cases a; rw [b]
  all_goals cases h

/-- The state after `p` was sent. -/
def afterSending (s : State) (p : Bytes) (writes : List Nat) : State :=
  { s with client := { s.client with conn :=
      { s.client.conn with sent := s.client.conn.sent ++ p, writes := writes } } }

theorem sendRaw_told (s s' : State) (data : Bytes) (r : Told Unit)
    (h : onClientTold (·.sendRawDataTold data) s = (r, s')) :
    (r = .ok () ∧ ∃ w, s' = afterSending s data w) ∨
    (r = .throw .runtimeError (Client.writeFailed data.length) ∧
      ∃ w p rest, data = p ++ rest ∧ rest ≠ [] ∧ s' = afterSending s p w) := by
  unfold onClientTold Client.sendRawDataTold Client.sendRawData Conn.write at h
  obtain ⟨w, -, h1 | ⟨k, hk, h1⟩⟩ := writeLoop_spec s.client.conn.writes s.client.conn.sent data
  · simp only [h1, saying] at h
    obtain ⟨a, b⟩ := Prod.mk.inj h
    exact Or.inl ⟨a.symm, w, b.symm⟩
  · simp only [h1, saying] at h
    obtain ⟨a, b⟩ := Prod.mk.inj h
    refine Or.inr ⟨a.symm, w, data.take k, data.drop k, (List.take_append_drop k data).symm, ?_, b.symm⟩
    intro hd
    have := List.drop_eq_nil_iff.1 hd
    omega

theorem send_told [Platform] {s s' : State} {f : Frame} {data : Bytes} {r : Told Unit}
    (hf : f.serialize = .ok data) (h : onClientTold (·.sendFrameTold f) s = (r, s')) :
    (r = .ok () ∧ ∃ w, s' = afterSending s data w) ∨
    (r = .throw .runtimeError (Client.writeFailed data.length) ∧
      ∃ w p rest, data = p ++ rest ∧ rest ≠ [] ∧ s' = afterSending s p w) := by
  refine sendRaw_told s s' data r ?_
  rw [← h]
  unfold onClientTold Client.sendFrameTold
  rw [hf]

theorem receive_over_told [Platform] (c d : Client) :
    (over c d).receiveFrameTold =
      (c.receiveFrameTold.1, over c.receiveFrameTold.2.1 d, c.receiveFrameTold.2.2) := by
  have hp : ∀ (c : Client) fh raw, (over c d).processFrameTold fh raw =
      ((c.processFrameTold fh raw).1, over (c.processFrameTold fh raw).2.1 d,
        (c.processFrameTold fh raw).2.2) := by
    intro c fh raw
    unfold Client.processFrameTold
    rw [show (over c d).responseTable = c.responseTable from rfl]
    rcases buildFrameTold fh raw c.responseTable with ⟨f | ⟨e, w⟩ | k | _, said⟩
    · simp only
      rcases updateDynamicTableFrameTold f c.responseTable with ⟨⟨⟩ | ⟨e, w⟩ | k | _, t⟩ <;> rfl
    all_goals rfl
  have hr : ∀ (c : Client) n, (over c d).receiveRawDataTold n =
      ((c.receiveRawDataTold n).1, over (c.receiveRawDataTold n).2 d) := by
    intro c n
    rfl
  unfold Client.receiveFrameTold
  rw [hr]
  rcases c.receiveRawDataTold 9 with ⟨raw | ⟨e, w⟩ | k | _, c1⟩
  · simp only
    cases buildFrameHeader raw with
    | ok fh =>
        simp only
        split
        · rw [hr]
          rcases c1.receiveRawDataTold fh.length.toNat with ⟨raw2 | ⟨e, w⟩ | k | _, c2⟩
          · exact hp _ _ _
          · rfl
          · rfl
          · rfl
        · exact hp _ _ _
    | throw e => rfl
    | ub k => rfl
    | diverge => rfl
  · rfl
  · rfl
  · rfl

/-- How a run from the connected client on can fail. -/
theorem main_throws [Platform] (o : Outside) (conn : Conn) (cout : Stream) (s' : State) (e : Exc)
    (w : What) (h : mainTold o ⟨Client.new conn, cout⟩ = (.throw e w, s')) :
    ∃ fs c t, Received (Client.new conn) fs c ∧ Prints fs cout t ∧
      ((e = .runtimeError ∧ s'.cout = t ∧ ∃ done piece later part,
          conversation = done ++ piece :: later ∧ part <+: piece ∧ part ≠ piece ∧
          s'.client.conn.sent = conn.sent ++ done.flatten ++ part ∧
          w = .system (ascii "BIO_write failed: result=") (ascii ", length=" ++ decimal piece.length) ∧
          (done.length < 2 ∧ fs = [] ∨ 2 ≤ done.length ∧ done.length < 4 ∧ fs.length = 1 ∨
            done.length = 4 ∧ 2 ≤ fs.length)) ∨
       (fs = [] ∧ s'.client.conn.sent = conn.sent ++ preface ++ settingsOctets ∧ s'.cout = t ∧
        c.receiveFrameTold.1 = .throw e w) ∨
       (fs ≠ [] ∧
        s'.client.conn.sent = conn.sent ++ preface ++ settingsOctets ++ ackOctets ++ requestOctets ∧
        s'.cout = { t with out := t.out ++ w.text o ++ [10] } ∧
        c.receiveFrameTold.1 = .throw e w)) := by
  have hw : ∀ n, Client.writeFailed n =
      .system (ascii "BIO_write failed: result=") (ascii ", length=" ++ decimal n) := by
    intro n
    rw [Client.writeFailed, toString_eq]
    rfl
  have part : ∀ {p rest piece : Bytes}, piece = p ++ rest → rest ≠ [] → p <+: piece ∧ p ≠ piece := by
    rintro p rest piece rfl h
    exact ⟨List.prefix_append _ _, fun h1 => h (by simpa using h1)⟩
  have hpre : bstr "PRI * HTTP/2.0\r\n\r\nSM\r\n\r\n" = preface := by decide +kernel
  have conn0 : (Client.new conn).conn = conn := rfl
  unfold mainTold at h
  rw [hpre] at h
  -- preface
  rcases andThenTold_throw h with h | ⟨_, s1, h1, h⟩
  · rcases sendRaw_told _ _ _ _ h with ⟨a, -⟩ | ⟨a, wr, p, rest, h2, h3, rfl⟩
    · cases a
    cases a
    refine ⟨[], _, _, .nil _, .nil _, Or.inl ⟨rfl, rfl, [], preface, [settingsOctets, ackOctets, requestOctets, goawayOctets], p, rfl, (part h2 h3).1,
      (part h2 h3).2, ?_, hw _, Or.inl ⟨by simp, rfl⟩⟩⟩
    show conn.sent ++ p = _
    simp
  rcases sendRaw_told _ _ _ _ h1 with ⟨-, w1, rfl⟩ | ⟨a, -⟩
  swap
  · cases a
  -- SETTINGS
  rcases andThenTold_throw h with h | ⟨_, s2, h2, h⟩
  · rcases send_told settings_serialize h with ⟨a, -⟩ | ⟨a, wr, p, rest, h2, h3, rfl⟩
    · cases a
    cases a
    refine ⟨[], _, _, .nil _, .nil _, Or.inl ⟨rfl, rfl, [preface], settingsOctets, [ackOctets, requestOctets, goawayOctets], p, rfl, (part h2 h3).1,
      (part h2 h3).2, ?_, hw _, Or.inl ⟨by simp, rfl⟩⟩⟩
    show conn.sent ++ preface ++ p = _
    simp
  rcases send_told settings_serialize h2 with ⟨-, w2, rfl⟩ | ⟨a, -⟩
  swap
  · cases a
  -- the table
  have ht : (Client.new conn).requestTable = .default := rfl
  rcases andThenTold_throw h with h | ⟨_, s3, h3, h⟩
  · exfalso
    unfold onClientTold Client.updateRequestTableSize at h
    simp only [afterSending, ht, table_resize] at h
    cases h
  unfold onClientTold Client.updateRequestTableSize at h3
  simp only [afterSending, ht, table_resize] at h3
  obtain rfl := (Prod.mk.inj h3).2
  generalize hc3 : Client.mk ⟨(Client.new conn).conn.incoming,
    (Client.new conn).conn.sent ++ preface ++ settingsOctets, (Client.new conn).conn.reads, w2⟩
    ⟨[], 0, 8192⟩ (Client.new conn).responseTable = c3 at h
  have hover : over c3 (Client.new conn) = Client.new conn := by rw [← hc3]; rfl
  have hsent3 : c3.conn.sent = conn.sent ++ (preface ++ settingsOctets) := by
    rw [← hc3, ← List.append_assoc]; rfl
  -- the first frame
  rcases andThenTold_throw h with h | ⟨first, s4, h4, hA⟩
  · unfold receiveTold at h
    obtain ⟨a, b⟩ := Prod.mk.inj h
    have hs := (C134_receive c3 e w a).1
    have hsent : s'.client.conn.sent = c3.conn.sent := by
      rw [← b]
      have := (C59_receive c3).2.1
      rw [← Client.receiveFrameTold_toRes c3] at this
      exact this
    have hcout : s'.cout = cout := by
      rw [← b]
      show say o c3.receiveFrameTold.2.2 cout = cout
      rw [hs]
      rfl
    refine ⟨[], _, _, .nil _, .nil _, Or.inr (Or.inl ⟨rfl, by rw [hsent, hsent3, List.append_assoc],
      hcout, ?_⟩)⟩
    rw [← hover, receive_over_told]; exact a
  have hr4 : c3.receiveFrame = (.ok first, s4.client) ∧ s4.cout = cout := by
    obtain ⟨g1, g2, g3⟩ := agrees_receive o ⟨c3, cout⟩
    rw [h4] at g1 g2 g3
    have e1 : c3.receiveFrame.1 = .ok first := g1.symm
    have e2 := g3 first e1
    exact ⟨Prod.ext e1 g2.symm, by rw [show s4 = _ from e2]; rfl⟩
  obtain ⟨c4, cout4⟩ := s4
  obtain ⟨hr4, rfl⟩ := hr4
  simp only at hr4
  have same4 := received_same (.cons _ _ _ _ _ hr4 (.nil _))
  have q1 : Received (Client.new conn) [first] (over c4 (Client.new conn)) :=
    hover ▸ received_over (.cons _ _ _ _ _ hr4 (.nil _)) (Client.new conn)
  have hsent4 : c4.conn.sent = conn.sent ++ (preface ++ settingsOctets) := by
    rw [same4]; exact hsent3
  have hrt : c4.requestTable = ⟨[], 0, 8192⟩ := by rw [same4, ← hc3]; rfl
  -- printing it
  obtain ⟨-, fh, raw, hb, hl⟩ := receive_ok hr4
  rcases C70_never_throws fh raw _ first hb hl cout4 with ⟨out, ho⟩ | ⟨k, ho⟩
  swap
  · exfalso
    rcases andThenTold_throw hA with h | ⟨_, s5, h5, h⟩
    · unfold print at h; simp only [ho, saying] at h; cases h
    · unfold print at h5; simp only [ho, saying] at h5; cases h5
  rcases andThenTold_throw hA with h | ⟨_, s5, h5, h⟩
  · unfold print at h; simp only [ho, saying] at h; cases h
  unfold print at h5
  simp only [ho, saying] at h5
  obtain rfl := (Prod.mk.inj h5).2
  have pr1 : Prints [first] cout4 out := .cons _ _ _ _ _ ho (.nil _)
  -- acknowledgement
  rcases andThenTold_throw h with h | ⟨_, s6, h6, h⟩
  · rcases send_told ack_serialize h with ⟨a, -⟩ | ⟨a, wr, p, rest, h2, h3, rfl⟩
    · cases a
    cases a
    refine ⟨[first], _, out, q1, pr1, Or.inl ⟨rfl, rfl, [preface, settingsOctets], ackOctets, [requestOctets, goawayOctets], p, rfl, (part h2 h3).1,
      (part h2 h3).2, ?_, hw _, Or.inr (Or.inl ⟨by simp, by simp, rfl⟩)⟩⟩
    show c4.conn.sent ++ p = _
    rw [hsent4]; simp
  rcases send_told ack_serialize h6 with ⟨-, w6, rfl⟩ | ⟨a, -⟩
  swap
  · cases a
  -- request
  obtain ⟨f, hf1, hf2, hf3⟩ := request_serialize
  have hrq : ∀ (s : State), s.client.requestTable = ⟨[], 0, 8192⟩ →
      (Told.quiet (requestFrame s.client.requestTable), s) = (.ok f, s) := by
    intro s hs
    rw [hs, hf1]; rfl
  rcases andThenTold_throw h with h | ⟨hf, s7, h7, h⟩
  · rw [hrq _ hrt] at h; cases h
  rw [hrq _ hrt] at h7
  obtain ⟨e1, e2⟩ := Prod.mk.inj h7
  cases e1
  subst e2
  rcases andThenTold_throw h with h | ⟨_, s8, h8, h⟩
  · rcases send_told hf2 h with ⟨a, -⟩ | ⟨a, wr, p, rest, h2, h3, rfl⟩
    · cases a
    cases a
    refine ⟨[first], _, out, q1, pr1, Or.inl ⟨rfl, rfl, [preface, settingsOctets, ackOctets], requestOctets, [goawayOctets], p, rfl, (part h2 h3).1,
      (part h2 h3).2, ?_, hw _, Or.inr (Or.inl ⟨by simp, by simp, rfl⟩)⟩⟩
    show c4.conn.sent ++ ackOctets ++ p = _
    rw [hsent4]; simp
  rcases send_told hf2 h8 with ⟨-, w8, rfl⟩ | ⟨a, -⟩
  swap
  · cases a
  -- the table
  have hup : ∀ (s : State), s.client.requestTable = ⟨[], 0, 8192⟩ →
      ∀ r s1, onClientTold (·.updateRequestDynamicTableTold f.headerBlock) s = (r, s1) →
        r = .ok () ∧ s1 = s := by
    intro s hs r s1 h
    have g := Client.updateRequestDynamicTableTold_toRes s.client f.headerBlock
    unfold Client.updateRequestDynamicTable at g
    simp only [hs, hf3] at g
    obtain ⟨g1, g2⟩ := Prod.mk.inj g
    unfold onClientTold at h
    obtain ⟨a, b⟩ := Prod.mk.inj h
    refine ⟨by rw [← a]; exact toRes_eq_ok.1 g1, ?_⟩
    rw [← b]
    show State.mk (s.client.updateRequestDynamicTableTold f.headerBlock).2 s.cout = s
    rw [g2, ← hs]
  rcases andThenTold_throw h with h | ⟨_, s9, h9, h⟩
  · cases (hup _ hrt _ _ h).1
  obtain rfl := (hup _ hrt _ _ h9).2
  generalize hs9 : afterSending (afterSending ⟨c4, out⟩ ackOctets w6) requestOctets w8 = s9 at h
  have hover9 : over s9.client (Client.new conn) = over c4 (Client.new conn) := by rw [← hs9]; rfl
  have hsent9 : s9.client.conn.sent =
      conn.sent ++ (preface ++ settingsOctets ++ ackOctets ++ requestOctets) := by
    rw [← hs9]
    show c4.conn.sent ++ ackOctets ++ requestOctets = _
    rw [hsent4]; simp only [List.append_assoc]
  have hcout9 : s9.cout = out := by rw [← hs9]; rfl
  -- the loop
  rcases andThenTold_throw h with h | ⟨last, s10, h10, h⟩
  · obtain ⟨gs, c, t, r1, r2, -, r4, r5, r6⟩ := (C136_throws o s9 s' e w).1 h
    have q2 := received_over r1 (Client.new conn)
    rw [hover9] at q2
    have hsent : s'.client.conn.sent = s9.client.conn.sent := by
      rw [← r5]
      have := (C59_receive c).2.1
      rw [← Client.receiveFrameTold_toRes c] at this
      rw [show c.receiveFrameTold.2.1.conn.sent = _ from this, received_same r1]
      rfl
    refine ⟨first :: gs, over c (Client.new conn), t, ?_,
      .cons _ _ _ _ _ ho (hcout9 ▸ r2),
      Or.inr (Or.inr ⟨by simp, by rw [hsent, hsent9]; simp only [List.append_assoc], r6,
        by rw [receive_over_told]; exact r4⟩)⟩
    cases q1 with
    | cons _ d _ _ _ a b =>
        cases b
        exact .cons _ _ _ _ _ a q2
  obtain ⟨gs, g, r1, r2, -, -, -⟩ := (C136_returns o s9 s10 last).1 h10
  have q2 := received_over r1 (Client.new conn)
  rw [hover9] at q2
  have hsent10 : s10.client.conn.sent = s9.client.conn.sent := by
    rw [received_same r1]; rfl
  split at h
  swap
  · cases h
  rcases send_told goaway_serialize h with ⟨a, -⟩ | ⟨a, wr, p, rest, h2, h3, rfl⟩
  · cases a
  cases a
  refine ⟨first :: (gs ++ [g]), over s10.client (Client.new conn), s10.cout, ?_,
    .cons _ _ _ _ _ ho (hcout9 ▸ r2), Or.inl ⟨rfl, rfl,
      [preface, settingsOctets, ackOctets, requestOctets], goawayOctets, [], p, rfl, (part h2 h3).1,
      (part h2 h3).2, ?_, hw _, Or.inr (Or.inr ⟨rfl, by simp⟩)⟩⟩
  · cases q1 with
    | cons _ d _ _ _ a b =>
        cases b
        exact .cons _ _ _ _ _ a q2
  · show s10.client.conn.sent ++ p = _
    rw [hsent10, hsent9]; simp

/-- C137. The texts do not change what the program does: a run that returns is a run of C72, with the
same output. -/
theorem C137_same [Platform] (o : Outside) (env : TlsEnv) (conn : Conn) (s' : State) :
    programTold o env conn = (.ok (), s') ↔
      (∀ s ∈ steps, s.Fine .verifyServerCert env) ∧
        main ⟨Client.new conn, ⟨[], false⟩⟩ = (.ok (), s') := by
  obtain ⟨h1, h2⟩ := C135_constructor .verifyServerCert env ⟨[], fun _ _ => [], 0⟩
  obtain ⟨g1, g2, g3⟩ := agrees_main o ⟨Client.new conn, ⟨[], false⟩⟩
  unfold programTold
  rcases failedAt_or .verifyServerCert env with h | ⟨step, h⟩
  · rw [h1 h]
    simp only
    constructor
    · intro hp
      rw [hp] at g1 g2 g3
      have e : (main ⟨Client.new conn, ⟨[], false⟩⟩).1 = .ok () := g1.symm
      exact ⟨h, Prod.ext e (g3 () e).symm⟩
    · rintro ⟨-, hp⟩
      rw [hp] at g1 g2 g3
      exact Prod.ext (toRes_eq_ok.1 g1) (g3 () rfl)
  · obtain ⟨w, hw, -⟩ := h2 step h
    rw [hw]
    constructor
    · intro hp; cases hp
    · rintro ⟨hf, -⟩
      obtain ⟨before, after, e1, -, e3⟩ := h
      exact absurd (hf step (by rw [e1]; simp)) e3

/-- C137. What a run of the sample leaves behind that ends with an exception. Either the constructor
failed: then nothing was printed and nothing was sent. Or the frames `fs` were received and printed, and
it failed in one of three ways. A write failed inside a piece of the conversation, and everything
before the piece was sent, and part of it; the text gives the number of octets of the piece, and is not
printed. Or the first frame could not be received: nothing was printed, not even the text. Or, after the
request, a later frame could not be received: only then the last line printed is the text. -/
theorem C137_failed_run [Platform] (o : Outside) (env : TlsEnv) (conn : Conn) (s' : State) (e : Exc)
    (w : What) (h : programTold o env conn = (.throw e w, s')) :
    (e = .runtimeError ∧ s'.cout.out = [] ∧ s'.client.conn.sent = conn.sent ∧
      ∃ step, FailedAt .verifyServerCert env step ∧ w.text o = step.text ++ step.rest o.number env) ∨
    ∃ fs c t, Received (Client.new conn) fs c ∧ Prints fs ⟨[], false⟩ t ∧
      ((e = .runtimeError ∧ s'.cout = t ∧ ∃ done piece later part,
          conversation = done ++ piece :: later ∧ part <+: piece ∧ part ≠ piece ∧
          s'.client.conn.sent = conn.sent ++ done.flatten ++ part ∧
          w = .system (ascii "BIO_write failed: result=") (ascii ", length=" ++ decimal piece.length) ∧
          (done.length < 2 ∧ fs = [] ∨ 2 ≤ done.length ∧ done.length < 4 ∧ fs.length = 1 ∨
            done.length = 4 ∧ 2 ≤ fs.length)) ∨
       (fs = [] ∧ s'.client.conn.sent = conn.sent ++ preface ++ settingsOctets ∧ s'.cout = t ∧
        c.receiveFrameTold.1 = .throw e w) ∨
       (fs ≠ [] ∧
        s'.client.conn.sent = conn.sent ++ preface ++ settingsOctets ++ ackOctets ++ requestOctets ∧
        s'.cout = { t with out := t.out ++ w.text o ++ [10] } ∧
        c.receiveFrameTold.1 = .throw e w)) := by
  obtain ⟨h1, h2⟩ := C135_constructor .verifyServerCert env o
  unfold programTold at h
  rcases failedAt_or .verifyServerCert env with hf | ⟨step, hf⟩
  · rw [h1 hf] at h
    exact Or.inr (main_throws o conn _ s' e w h)
  · obtain ⟨w', hw, ht⟩ := h2 step hf
    rw [hw] at h
    obtain ⟨a, b⟩ := Prod.mk.inj h
    cases a
    subst b
    exact Or.inl ⟨rfl, rfl, rfl, step, hf, ht⟩

/-- C133 with C137, for the whole program: a run that ends with an exception received some frames, none if
the constructor failed, and its output is their texts one after the other, and then at most one line
more, the text of the exception. The lines that start with `=== ` count the frames and stand before the
text of each. The conditions are those of `C133_failed_partial`. Missing: frames with a line in a header
or in debug data that starts with an equals sign, as in `C133_titles_partial`. -/
theorem C133_failed_run_partial [Platform] (o : Outside) (ho : o.Plain) (env : TlsEnv) (conn : Conn)
    (s' : State) (e : Exc) (w : What) (h : programTold o env conn = (.throw e w, s')) :
    ∃ (fs : List Frame) (c : Client), Received (Client.new conn) fs c ∧
      ((∀ f ∈ fs, NoForgedTitle f) →
        ∃ (ts : List Bytes) (line : Bytes), s'.cout.out = ts.flatten ++ line ∧
          (line = [] ∨ line = w.text o ++ [10]) ∧ ts.length = fs.length ∧
          (∀ (k : Nat) f t, fs[k]? = some f → ts[k]? = some t → title f ++ [10] <+: t) ∧
          ∀ a b, s'.cout.out = a ++ b →
            (LineStarts a ∧ ascii "=== " <+: b ↔ ∃ k < fs.length, a = (ts.take k).flatten)) := by
  rcases C137_failed_run o env conn s' e w h with ⟨-, h1, -⟩ | ⟨fs, c, t, h1, h2, h3⟩
  · refine ⟨[], Client.new conn, .nil _, fun _ => ⟨[], [], by rw [h1]; rfl, Or.inl rfl, rfl, by simp, ?_⟩⟩
    intro a b hab
    rw [h1] at hab
    obtain ⟨-, rfl⟩ := List.append_eq_nil_iff.1 hab.symm
    simp [ascii]
  refine ⟨fs, c, h1, fun hf => ?_⟩
  obtain ⟨ts, o', h5, h6⟩ := logs_of_prints h2 (o := ⟨[], Format.initial⟩) (by constructor <;> rfl)
  obtain ⟨a1, a2, a3, a4⟩ := C133_titles_partial _ _ _ _ h5 rfl hf
  have e1 : t.out = ts.flatten := by rw [← h6.out, a2]; rfl
  have plain : s'.cout = t → ∃ (ts : List Bytes) (line : Bytes), s'.cout.out = ts.flatten ++ line ∧
      (line = [] ∨ line = w.text o ++ [10]) ∧ ts.length = fs.length ∧
      (∀ (k : Nat) f t, fs[k]? = some f → ts[k]? = some t → title f ++ [10] <+: t) ∧
      ∀ a b, s'.cout.out = a ++ b →
        (LineStarts a ∧ ascii "=== " <+: b ↔ ∃ k < fs.length, a = (ts.take k).flatten) := by
    intro ht
    refine ⟨ts, [], by rw [ht, e1, List.append_nil], Or.inl rfl, a1,
      fun k f t hk ht => (a3 k f t hk ht).1, fun a b hab => a4 a b ?_⟩
    rw [← hab, ht, e1]
  rcases h3 with ⟨-, ht, -⟩ | ⟨-, -, ht, -⟩ | ⟨-, -, ht, h7⟩
  · exact plain ht
  · exact plain ht
  · have e2 : s'.cout.out = ts.flatten ++ (w.text o ++ [10]) := by rw [ht, ← e1]; simp
    obtain ⟨p1, p2⟩ := C134_one_line c e w o ho h7
    refine ⟨ts, _, e2, Or.inr rfl, a1, fun k f t hk ht => (a3 k f t hk ht).1, fun a b hab => ?_⟩
    rw [← a1]
    refine titles_then_line (fun t ht => ?_) (fun a b hab => by rw [a1]; exact a4 a b hab) p1 p2 a b
      (by rw [← hab, e2, List.append_assoc])
    obtain ⟨k, hk, rfl⟩ := List.mem_iff_getElem.1 ht
    exact (a3 k fs[k] ts[k] (List.getElem?_eq_getElem (by omega)) (List.getElem?_eq_getElem hk)).2

/-- All calls of OpenSSL succeed. -/
def connected : TlsEnv := { expired with verifyResult := 0 }

example : ∀ s ∈ steps, s.Fine .verifyServerCert connected := by
  simp [steps, Step.Fine, connected, expired]

attribute [local instance] x86 in
/-- Non-vacuity of `C137_failed_run` and `C133_failed_run_partial`: the certificate has expired; the connection breaks after 30 octets,
inside SETTINGS; the server closes before its first frame; it closes after its SETTINGS, and the sample
prints the reason. -/
example :
    (programTold libstdcxx expired ⟨[], [], [], []⟩).1 =
      .throw .runtimeError (.said (ascii "SSL_get_verify_result failed: verify_result=10")) ∧
    (let r := programTold libstdcxx connected ⟨[], [], [], [24, 6, 0]⟩
     r.1 = .throw .runtimeError
        (.system (ascii "BIO_write failed: result=") (ascii ", length=27")) ∧
      r.2.client.conn.sent.length = 30 ∧ r.2.cout.out = []) ∧
    (let r := programTold libstdcxx connected ⟨[], [], [0], [100, 100]⟩
     r.1 = .throw .runtimeError (.system (ascii "BIO_read failed: result=") (ascii ", length=9")) ∧
      r.2.cout.out = []) ∧
    (let r := programTold libstdcxx connected
        ⟨[0, 0, 0, 4, 0, 0, 0, 0, 0], [], [9, 0], [100, 100, 100, 100]⟩
     r.1 = .throw .runtimeError (.system (ascii "BIO_read failed: result=") (ascii ", length=9")) ∧
      r.2.cout.out.reverse.take 36 = (ascii "\nBIO_read failed: result=0, length=9\n").reverse.take 36) := by
  decide +kernel

end Mh2c.Sample
