/-
C66: the receive loop and the main program of the sample.
-/
import Verif.Spec.Duties
import Verif.Props.Dump
import Verif.Props.Client
import Verif.Proofs.Total
import Verif.Props.HeaderRfc

namespace Mh2c.Sample

open Rfc

theorem receive_ok [Platform] {c d : Client} {f : Frame} (h : c.receiveFrame = (.ok f, d)) :
    d.conn.reads.length < c.conn.reads.length ∧
      ∃ fh raw, buildFrame fh raw c.responseTable = .ok f ∧ raw.length < 2 ^ 24 := by
  obtain ⟨reads', -, ⟨k, h1, h2, h3⟩ | ⟨fh, h1, h2, h3, h4, h5⟩⟩ := receiveFrame_cases c
  · rw [h3] at h; cases h
  · rw [h5, processFrame_eq] at h
    have hd := (Prod.mk.inj h).2
    have hf := (Prod.mk.inj h).1
    refine ⟨by rw [← hd]; exact h4, fh,
      (c.conn.incoming.drop 9).take (beValue (c.conn.incoming.take 3)), ?_, ?_⟩
    · change (processTable _ _ c.responseTable).1 = _ at hf
      unfold processTable at hf
      cases hb : buildFrame fh ((c.conn.incoming.drop 9).take (beValue (c.conn.incoming.take 3)))
        c.responseTable with
      | ok g =>
          rw [hb] at hf
          simp only at hf
          rcases hu : updateDynamicTableFrame g c.responseTable with ⟨_ | _ | _ | _, t'⟩ <;>
            rw [hu] at hf
          · exact hf
          · cases hf
          · cases hf
          · cases hf
      | throw e => rw [hb] at hf; cases hf
      | ub k => rw [hb] at hf; cases hf
      | diverge => rw [hb] at hf; cases hf
    · rw [List.length_take]
      have : (c.conn.incoming.take 3).length ≤ 3 := by rw [List.length_take]; omega
      have := beValue_lt (c.conn.incoming.take 3)
      have : 256 ^ (c.conn.incoming.take 3).length ≤ 256 ^ 3 := Nat.pow_le_pow_right (by omega) (by omega)
      omega

/-- `is_more_data` is false exactly for GOAWAY and for DATA with END_STREAM. -/
theorem isMoreData_iff [Platform] {fh : FrameHeader} {raw : Bytes} {t : DynamicTable} {f : Frame}
    (h : buildFrame fh raw t = .ok f) : isMoreData f.header = false ↔ EndsLoop f := by
  have hb := built_of_ok h
  have ht := hb.type
  cases hb with
  | data _ =>
      show isMoreData (DataFrame.new fh.flags fh.streamId raw).header = false ↔ hasEndStream fh.flags
      exact of_decide_eq_true <| u8_all (p := fun b =>
        isMoreData ⟨0, 0, b, 0, 0⟩ = false ↔ hasEndStream b) (by decide +kernel) fh.flags
  | goaway h1 f _ =>
      simp only [EndsLoop, iff_true]
      unfold isMoreData
      rw [ht, h1]
      rfl
  | headers h1 | rawHeaders h1 | priority h1 | rstStream h1 | settings h1 | pushPromise h1 | ping h1
  | windowUpdate h1 | continuation h1 =>
      simp only [EndsLoop, iff_false]
      unfold isMoreData
      rw [ht, h1]
      show ¬ true = false
      simp

/-- One round of the loop. -/
theorem loop_step [Platform] {s : State} {f : Frame} {d : Client}
    (h : s.client.receiveFrame = (.ok f, d)) :
    (∃ out, f.dump s.cout = .ok out ∧ ((EndsLoop f ∧ receiveFrames s = (.ok f.header.type, ⟨d, out⟩)) ∨
      (¬ EndsLoop f ∧ receiveFrames s = receiveFrames ⟨d, out⟩))) ∨
    ∃ k, f.dump s.cout = .ub k ∧ receiveFrames s = (.ub k, ⟨d, s.cout⟩) := by
  obtain ⟨hr, fh, raw, hb, hl⟩ := receive_ok h
  rcases C70_never_throws fh raw _ f hb hl s.cout with ⟨out, ho⟩ | ⟨k, ho⟩
  · refine Or.inl ⟨out, ho, ?_⟩
    by_cases he : EndsLoop f
    · refine Or.inl ⟨he, ?_⟩
      rw [receiveFrames, h]
      simp only [ho, (isMoreData_iff hb).2 he, Bool.false_eq_true, if_false]
    · refine Or.inr ⟨he, ?_⟩
      have hm : isMoreData f.header = true := by
        by_contra hc
        exact he ((isMoreData_iff hb).1 (by simpa using hc))
      rw [receiveFrames, h]
      simp only [ho, hm, if_true, if_pos hr]
  · refine Or.inr ⟨k, ho, ?_⟩
    rw [receiveFrames, h]
    simp only [ho]

/-- C66. The loop returns exactly if the client can receive, and the stream can print, frames up to
a first GOAWAY or DATA with END_STREAM; then it has received and printed exactly these, in
order, and returns the type octet of the last one. -/
theorem C66_returns [Platform] (s s' : State) (type : UInt8) :
    receiveFrames s = (.ok type, s') ↔
      ∃ gs g, Received s.client (gs ++ [g]) s'.client ∧ Prints (gs ++ [g]) s.cout s'.cout ∧
        (∀ f ∈ gs, ¬ EndsLoop f) ∧ EndsLoop g ∧ type = g.header.type := by
  constructor
  · intro h
    induction hn : s.client.conn.reads.length using Nat.strong_induction_on generalizing s with
    | _ n ih =>
        subst hn
        rcases hr : s.client.receiveFrame with ⟨f | e | k | _, d⟩
        · rcases loop_step hr with ⟨out, ho, ⟨he, h1⟩ | ⟨he, h1⟩⟩ | ⟨k, ho, h1⟩
          · rw [h1] at h
            obtain ⟨h2, h3⟩ := Prod.mk.inj h
            subst h3
            exact ⟨[], f, .cons _ _ _ _ _ hr (.nil _), .cons _ _ _ _ _ ho (.nil _), by simp, he,
              (Res.ok.inj h2).symm⟩
          · rw [h1] at h
            obtain ⟨gs, g, i1, i2, i3, i4, i5⟩ := ih _ (receive_ok hr).1 ⟨d, out⟩ h rfl
            refine ⟨f :: gs, g, .cons _ _ _ _ _ hr i1, .cons _ _ _ _ _ ho i2, ?_, i4, i5⟩
            intro x hx
            rcases List.mem_cons.1 hx with rfl | hx
            · exact he
            · exact i3 x hx
          · rw [h1] at h; cases h
        all_goals
          rw [receiveFrames, hr] at h
          cases h
  · rintro ⟨gs, g, h1, h2, h3, h4, rfl⟩
    induction gs generalizing s with
    | nil =>
        obtain ⟨c, o⟩ := s
        obtain ⟨c', o'⟩ := s'
        cases h1 with
        | cons _ d _ _ _ hr hn =>
            cases hn
            cases h2 with
            | cons _ _ _ out _ ho hn =>
                cases hn
                rcases loop_step (s := ⟨c, o⟩) hr with ⟨out, ho', ⟨he, h1⟩ | ⟨he, h1⟩⟩ | ⟨k, ho', h1⟩
                · rw [h1]
                  rw [ho] at ho'
                  obtain rfl : o' = out := Res.ok.inj ho'
                  rfl
                · exact absurd h4 he
                · rw [ho] at ho'; cases ho'
    | cons f gs ih =>
        obtain ⟨c, o⟩ := s
        cases h1 with
        | cons _ d _ _ _ hr hn =>
            cases h2 with
            | cons _ _ _ out _ ho hm =>
                rcases loop_step (s := ⟨c, o⟩) hr with ⟨out', ho', ⟨he, h1⟩ | ⟨he, h1⟩⟩ | ⟨k, ho', h1⟩
                · exact absurd he (h3 f (by simp))
                · rw [h1]
                  rw [ho] at ho'
                  obtain rfl := Res.ok.inj ho'
                  exact ih ⟨d, out⟩ hn hm (fun x hx => h3 x (by simp [hx]))
                · rw [ho] at ho'; cases ho'

/-- C66. The loop throws exactly what a call of receive_frame throws; the frames before were
received and printed and none of them ended the loop. -/
theorem C66_throws [Platform] (s s' : State) (e : Exc) :
    receiveFrames s = (.throw e, s') ↔
      ∃ gs c, Received s.client gs c ∧ Prints gs s.cout s'.cout ∧ (∀ f ∈ gs, ¬ EndsLoop f) ∧
        c.receiveFrame = (.throw e, s'.client) := by
  constructor
  · intro h
    induction hn : s.client.conn.reads.length using Nat.strong_induction_on generalizing s with
    | _ n ih =>
        subst hn
        rcases hr : s.client.receiveFrame with ⟨f | e' | k | _, d⟩
        · rcases loop_step hr with ⟨out, ho, ⟨he, h1⟩ | ⟨he, h1⟩⟩ | ⟨k, ho, h1⟩
          · rw [h1] at h; cases h
          · rw [h1] at h
            obtain ⟨gs, c, i1, i2, i3, i4⟩ := ih _ (receive_ok hr).1 ⟨d, out⟩ h rfl
            refine ⟨f :: gs, c, .cons _ _ _ _ _ hr i1, .cons _ _ _ _ _ ho i2, ?_, i4⟩
            intro x hx
            rcases List.mem_cons.1 hx with rfl | hx
            · exact he
            · exact i3 x hx
          · rw [h1] at h; cases h
        · rw [receiveFrames, hr] at h
          obtain ⟨h1, h2⟩ := Prod.mk.inj h
          subst h2
          obtain rfl := Res.throw.inj h1
          exact ⟨[], s.client, .nil _, .nil _, by simp, hr⟩
        all_goals
          rw [receiveFrames, hr] at h
          cases h
  · rintro ⟨gs, c, h1, h2, h3, h4⟩
    induction gs generalizing s with
    | nil =>
        obtain ⟨c0, o⟩ := s
        obtain ⟨c', o'⟩ := s'
        cases h1
        cases h2
        rw [receiveFrames, h4]
    | cons f gs ih =>
        obtain ⟨c0, o⟩ := s
        cases h1 with
        | cons _ d _ _ _ hr hn =>
            cases h2 with
            | cons _ _ _ out _ ho hm =>
                rcases loop_step (s := ⟨c0, o⟩) hr with ⟨out', ho', ⟨he, h1⟩ | ⟨he, h1⟩⟩ | ⟨k, ho', h1⟩
                · exact absurd he (h3 f (by simp))
                · rw [h1]
                  rw [ho] at ho'
                  obtain rfl := Res.ok.inj ho'
                  exact ih ⟨d, out⟩ hn hm (fun x hx => h3 x (by simp [hx]))
                · rw [ho] at ho'; cases ho'

/-- C66. The loop ends: it returns, throws, or (printing, or a table update) is undefined. -/
theorem C66_ends [Platform] (s : State) : (receiveFrames s).1 ≠ .diverge := by
  induction hn : s.client.conn.reads.length using Nat.strong_induction_on generalizing s with
  | _ n ih =>
      subst hn
      rcases hr : s.client.receiveFrame with ⟨f | e' | k | _, d⟩
      · rcases loop_step hr with ⟨out, ho, ⟨he, h1⟩ | ⟨he, h1⟩⟩ | ⟨k, ho, h1⟩
        · rw [h1]; simp
        · rw [h1]; exact ih _ (receive_ok hr).1 ⟨d, out⟩ rfl
        · rw [h1]; simp
      · rw [receiveFrames, hr]; simp
      · rw [receiveFrames, hr]; simp
      · have := receiveFrame_ne_diverge s.client
        rw [hr] at this
        exact absurd rfl this

attribute [local instance] x86 in
/-- A stream with an empty SETTINGS, a DATA frame, a DATA frame with END_STREAM and more. -/
example : let s : State := ⟨Client.new ⟨[0, 0, 0, 4, 0, 0, 0, 0, 0, 0, 0, 1, 0, 0, 0, 0, 0, 1, 104,
      0, 0, 1, 0, 1, 0, 0, 0, 1, 105, 77], [], [9, 9, 9, 9, 9, 9], []⟩, ⟨[], false⟩⟩
    (receiveFrames s).1 = .ok 0 ∧ (receiveFrames s).2.client.conn.incoming = [77] := by
  decide +kernel

attribute [local instance] x86 in
/-- The same stream cut before the last frame. -/
example : let s : State := ⟨Client.new ⟨[0, 0, 0, 4, 0, 0, 0, 0, 0, 0, 0, 1, 0, 0, 0, 0, 0, 1, 104],
      [], [9, 9, 9, 9, 9, 9], []⟩, ⟨[], false⟩⟩
    (receiveFrames s).1 = .throw .runtimeError := by decide +kernel

/-! ## C72 -/

/-- The client `c` with the sending side of `d`. -/
def over (c d : Client) : Client :=
  { c with conn := { c.conn with sent := d.conn.sent, writes := d.conn.writes },
           requestTable := d.requestTable }

theorem receive_over [Platform] (c d : Client) :
    (over c d).receiveFrame = (c.receiveFrame.1, over c.receiveFrame.2 d) := by
  have hp : ∀ (c : Client) fh raw, (over c d).processFrame fh raw =
      ((c.processFrame fh raw).1, over (c.processFrame fh raw).2 d) := by
    intro c fh raw
    rw [processFrame_eq, processFrame_eq]
    rfl
  have hr : ∀ (c : Client) n, (over c d).receiveRawData n =
      ((c.receiveRawData n).1, over (c.receiveRawData n).2 d) := by
    intro c n
    rfl
  unfold Client.receiveFrame
  rw [hr]
  rcases c.receiveRawData 9 with ⟨raw | e | k | _, c1⟩
  · simp only
    cases buildFrameHeader raw with
    | ok fh =>
        simp only
        split
        · rw [hr]
          rcases c1.receiveRawData fh.length.toNat with ⟨raw2 | e | k | _, c2⟩
          · exact hp _ _ _
          · rfl
          · rfl
          · rfl
        · exact hp _ _ _
    | throw e => rfl
    | ub k => rfl
    | diverge => rfl
  · rfl
  · rfl
  · rfl

theorem received_over [Platform] {c c' : Client} {gs : List Frame} (h : Received c gs c')
    (d : Client) : Received (over c d) gs (over c' d) := by
  induction h with
  | nil => exact .nil _
  | cons c c1 c' g gs h1 h ih =>
      exact .cons _ _ _ _ _ (by rw [receive_over, h1]) ih

theorem received_same [Platform] {c c' : Client} {gs : List Frame} (h : Received c gs c') :
    c' = over c' c := by
  induction h with
  | nil => rfl
  | cons c c1 c' g gs h1 h ih =>
      have := C59_receive c
      rw [h1] at this
      simp only at this
      rw [ih]
      unfold over
      simp only [this.1, this.2.1, this.2.2]

theorem andThen_ok {α β : Type} {f : State → Res α × State} {g : α → State → Res β × State}
    {s s' : State} {b : β} (h : andThen f g s = (.ok b, s')) :
    ∃ a s1, f s = (.ok a, s1) ∧ g a s1 = (.ok b, s') := by
  unfold andThen at h
  rcases hf : f s with ⟨a | e | k | _, s1⟩ <;> rw [hf] at h
  · exact ⟨a, s1, rfl, h⟩
  all_goals cases h

theorem sendRaw_cases (c : Client) (data : Bytes) :
    ∃ writes' p, p <+: data ∧
      (c.sendRawData data).2 = { c with conn := { c.conn with sent := c.conn.sent ++ p, writes := writes' } } ∧
      ((c.sendRawData data).1 = .ok () → p = data) := by
  obtain ⟨w, -, h | ⟨k, -, h⟩⟩ := writeLoop_spec c.conn.writes c.conn.sent data
  · refine ⟨w, data, List.prefix_refl _, ?_, fun _ => rfl⟩
    unfold Client.sendRawData Conn.write
    rw [h]
  · refine ⟨w, data.take k, List.take_prefix _ _, ?_, ?_⟩
    · unfold Client.sendRawData Conn.write
      rw [h]
    · unfold Client.sendRawData Conn.write
      rw [h]
      intro hc; cases hc

theorem sends_ok [Platform] {f : Frame} {b : Bytes} (hf : f.serialize = .ok b) {s s' : State}
    (h : onClient (·.sendFrame f) s = (.ok (), s')) :
    ∃ w, s' = { s with client := { s.client with conn :=
      { s.client.conn with sent := s.client.conn.sent ++ b, writes := w } } } := by
  obtain ⟨w, p, -, h1, h2⟩ := sendRaw_cases s.client b
  unfold onClient Client.sendFrame at h
  simp only [hf] at h
  obtain ⟨h3, h4⟩ := Prod.mk.inj h
  obtain rfl := h2 h3
  exact ⟨w, by rw [← h4, h1]⟩

theorem preface_ok {s s' : State} (h : onClient Client.sendConnectionPreface s = (.ok (), s')) :
    ∃ w, s' = { s with client := { s.client with conn :=
      { s.client.conn with sent := s.client.conn.sent ++ preface, writes := w } } } := by
  have hp : bstr "PRI * HTTP/2.0\r\n\r\nSM\r\n\r\n" = preface := by decide +kernel
  unfold onClient Client.sendConnectionPreface at h
  simp only [hp] at h
  obtain ⟨w, p, -, h1, h2⟩ := sendRaw_cases s.client preface
  obtain ⟨h3, h4⟩ := Prod.mk.inj h
  obtain rfl := h2 h3
  exact ⟨w, by rw [← h4, h1]⟩

theorem settings_serialize [P : Platform] : settingsToSend.serialize = .ok settingsOctets := by
  rcases P with ⟨_ | _, _ | _⟩ <;> decide +kernel

theorem ack_serialize [P : Platform] : settingsAck.serialize = .ok ackOctets := by
  rcases P with ⟨_ | _, _ | _⟩ <;> decide +kernel

theorem goaway_serialize [P : Platform] : goawayToSend.serialize = .ok goawayOctets := by
  rcases P with ⟨_ | _, _ | _⟩ <;> decide +kernel

theorem table_resize : DynamicTable.default.updateTableSize 8192 = .ok ⟨[], 0, 8192⟩ := by
  decide +kernel

theorem request_serialize [P : Platform] :
    ∃ f, requestFrame ⟨[], 0, 8192⟩ = .ok f ∧ (Frame.headers f).serialize = .ok requestOctets ∧
      updateDynamicTable f.headerBlock ⟨[], 0, 8192⟩ = (.ok (), ⟨[], 0, 8192⟩) := by
  have h1 : requestFrame ⟨[], 0, 8192⟩ = .ok ⟨requestBlock, ⟨31, 1, 5, 0, 1⟩, [], .zero,
      [⟨.indexed, .header (bstr ":method", bstr "GET")⟩,
       ⟨.neverIndexed, .header (bstr ":path", bstr "/httpbin/headers")⟩,
       ⟨.indexed, .header (bstr ":scheme", bstr "https")⟩,
       ⟨.neverIndexed, .header (bstr ":authority", bstr "nghttp2.org")⟩]⟩ := by decide +kernel
  refine ⟨_, h1, ?_, rfl⟩
  rcases P with ⟨_ | _, _ | _⟩ <;> decide +kernel

/-- C72. A run of the sample that ends normally: it has received and printed one frame and then
frames up to the first GOAWAY or DATA with END_STREAM; it has sent, in this order, the connection
preface, SETTINGS, SETTINGS ACK, the request, and a GOAWAY unless the last frame received was one. -/
theorem C72_normal_run [Platform] (conn : Conn) (cout : Stream) (s' : State)
    (h : main ⟨Client.new conn, cout⟩ = (.ok (), s')) :
    ∃ first gs g c, Received (Client.new conn) (first :: (gs ++ [g])) c ∧
      Prints (first :: (gs ++ [g])) cout s'.cout ∧
      (∀ f ∈ gs, ¬ EndsLoop f) ∧ EndsLoop g ∧
      s'.client.conn.incoming = c.conn.incoming ∧ s'.client.responseTable = c.responseTable ∧
      s'.client.conn.sent = conn.sent ++ preface ++ settingsOctets ++ ackOctets ++ requestOctets ++
        (if g.header.type = 7 then [] else goawayOctets) := by
  unfold main at h
  obtain ⟨_, s1, h1, h⟩ := andThen_ok h
  obtain ⟨w1, rfl⟩ := preface_ok h1
  obtain ⟨_, s2, h2, h⟩ := andThen_ok h
  obtain ⟨w2, rfl⟩ := sends_ok settings_serialize h2
  obtain ⟨_, s3, h3, h⟩ := andThen_ok h
  have ht : (Client.new conn).requestTable = .default := rfl
  unfold onClient Client.updateRequestTableSize at h3
  simp only [ht, table_resize] at h3
  obtain rfl := (Prod.mk.inj h3).2
  obtain ⟨first, s4, h4, h⟩ := andThen_ok h
  obtain ⟨_, s5, h5, h⟩ := andThen_ok h
  obtain ⟨_, s6, h6, h⟩ := andThen_ok h
  obtain ⟨hf, s7, h7, h⟩ := andThen_ok h
  obtain ⟨_, s8, h8, h⟩ := andThen_ok h
  obtain ⟨_, s9, h9, h⟩ := andThen_ok h
  obtain ⟨last, s10, h10, hlast⟩ := andThen_ok h
  -- the first frame
  unfold onClient at h4
  simp only at h4
  obtain ⟨h41, h42⟩ := Prod.mk.inj h4
  generalize hc3 : Client.mk ⟨(Client.new conn).conn.incoming,
    (Client.new conn).conn.sent ++ preface ++ settingsOctets, (Client.new conn).conn.reads, w2⟩
    ⟨[], 0, 8192⟩ (Client.new conn).responseTable = c3 at h41 h42
  have hr4 : c3.receiveFrame = (.ok first, c3.receiveFrame.2) := by rw [← h41]
  generalize hc4 : c3.receiveFrame.2 = c4 at hr4 h42
  have same4 := received_same (.cons _ _ _ _ _ hr4 (.nil _))
  subst h42
  -- printing it
  unfold print at h5
  simp only at h5
  cases hd : first.dump cout with
  | throw e => rw [hd] at h5; cases h5
  | ub k => rw [hd] at h5; cases h5
  | diverge => rw [hd] at h5; cases h5
  | ok out =>
  rw [hd] at h5
  obtain rfl := (Prod.mk.inj h5).2
  -- acknowledgement and request
  obtain ⟨w6, rfl⟩ := sends_ok ack_serialize h6
  have hrt : c4.requestTable = ⟨[], 0, 8192⟩ := by rw [same4, ← hc3]; rfl
  obtain ⟨f, hf1, hf2, hf3⟩ := request_serialize
  simp only [hrt, hf1] at h7
  obtain ⟨e1, e2⟩ := Prod.mk.inj h7
  obtain rfl := Res.ok.inj e1
  subst e2
  obtain ⟨w8, rfl⟩ := sends_ok hf2 h8
  unfold onClient Client.updateRequestDynamicTable at h9
  simp only [hf3] at h9
  obtain rfl := (Prod.mk.inj h9).2
  -- the loop
  obtain ⟨gs, g, r1, r2, r3, r4, r5⟩ := (C66_returns _ _ _).1 h10
  have same10 := received_same r1
  have hsent4 : c4.conn.sent = conn.sent ++ preface ++ settingsOctets := by
    rw [same4, ← hc3]; rfl
  have hsent10 : s10.client.conn.sent =
      conn.sent ++ preface ++ settingsOctets ++ ackOctets ++ requestOctets := by
    rw [same10]
    show c4.conn.sent ++ ackOctets ++ requestOctets = _
    rw [hsent4]
  have hty : ∀ t : UInt8, t ≠ FrameType.goaway.value ↔ ¬ t = 7 := fun t => Iff.rfl
  have hfin : s'.cout = s10.cout ∧ s'.client.conn.incoming = s10.client.conn.incoming ∧
      s'.client.responseTable = s10.client.responseTable ∧
      s'.client.conn.sent = s10.client.conn.sent ++ (if g.header.type = 7 then [] else goawayOctets) := by
    by_cases h7 : g.header.type = 7
    · rw [if_neg (by rw [r5, hty]; simpa using h7)] at hlast
      obtain rfl := (Prod.mk.inj hlast).2
      rw [if_pos h7, List.append_nil]
      exact ⟨rfl, rfl, rfl, rfl⟩
    · rw [if_pos (by rw [r5, hty]; exact h7)] at hlast
      obtain ⟨w, rfl⟩ := sends_ok goaway_serialize hlast
      rw [if_neg h7]
      exact ⟨rfl, rfl, rfl, rfl⟩
  obtain ⟨f1, f2, f3, f4⟩ := hfin
  refine ⟨first, gs, g, over s10.client (Client.new conn), ?_, .cons _ _ _ _ _ hd (f1 ▸ r2), r3, r4,
    f2, f3, by rw [f4, hsent10]⟩
  have q1 := received_over (.cons _ _ _ _ _ hr4 (.nil _)) (Client.new conn)
  have q2 := received_over r1 (Client.new conn)
  rw [← hc3] at q1
  cases q1 with
  | cons _ d _ _ _ a b =>
      cases b
      exact .cons _ _ _ _ _ a q2

/-- A step that, with request table `t`, sends a prefix of `b`; all of it, leaving request table
`t'`, if it returns. -/
def Emits {α : Type} (t : DynamicTable) (m : State → Res α × State) (b : Bytes) (t' : DynamicTable) :
    Prop :=
  ∀ s : State, s.client.requestTable = t → ∃ p, p <+: b ∧
    (m s).2.client.conn.sent = s.client.conn.sent ++ p ∧
    ∀ a, (m s).1 = .ok a → p = b ∧ (m s).2.client.requestTable = t'

/-- A step that, with request table `t`, sends a prefix of `b`. -/
def AtMost {α : Type} (t : DynamicTable) (m : State → Res α × State) (b : Bytes) : Prop :=
  ∀ s : State, s.client.requestTable = t → ∃ p, p <+: b ∧
    (m s).2.client.conn.sent = s.client.conn.sent ++ p

theorem Emits.andThen {α β : Type} {t t' : DynamicTable} {m : State → Res α × State}
    {k : α → State → Res β × State} {b b' : Bytes} (h : Emits t m b t')
    (hk : ∀ a, AtMost t' (k a) b') : AtMost t (Sample.andThen m k) (b ++ b') := by
  intro s hs
  obtain ⟨p, hp, h1, h2⟩ := h s hs
  unfold Sample.andThen
  rcases hm : m s with ⟨a | e | u | _, s1⟩ <;> rw [hm] at h1 h2
  · obtain ⟨rfl, h3⟩ := h2 a rfl
    obtain ⟨q, hq, h4⟩ := hk a s1 h3
    refine ⟨p ++ q, (List.prefix_append_right_inj p).2 hq, ?_⟩
    simp only at h1 ⊢
    rw [h4, h1, List.append_assoc]
  all_goals exact ⟨p, hp.trans (List.prefix_append _ _), h1⟩

theorem emits_send [Platform] (t : DynamicTable) {f : Frame} {b : Bytes} (hf : f.serialize = .ok b) :
    Emits t (onClient (·.sendFrame f)) b t := by
  intro s hs
  obtain ⟨w, p, hp, h1, h2⟩ := sendRaw_cases s.client b
  unfold onClient Client.sendFrame
  simp only [hf, h1]
  exact ⟨p, hp, rfl, fun a ha => ⟨h2 ha, hs⟩⟩

theorem emits_receive [Platform] (t : DynamicTable) : Emits t (onClient Client.receiveFrame) [] t := by
  intro s hs
  have := C59_receive s.client
  refine ⟨[], List.prefix_refl _, ?_, fun a _ => ⟨rfl, ?_⟩⟩
  · rw [List.append_nil]; exact this.2.1
  · exact this.1.trans hs

theorem emits_print [Platform] (t : DynamicTable) (f : Frame) : Emits t (print f) [] t := by
  intro s hs
  refine ⟨[], List.prefix_refl _, ?_, fun a _ => ⟨rfl, ?_⟩⟩ <;>
  · unfold print
    cases f.dump s.cout <;> simp [hs]

theorem receiveFrames_sending [Platform] (s : State) :
    (receiveFrames s).2.client.conn.sent = s.client.conn.sent ∧
      (receiveFrames s).2.client.requestTable = s.client.requestTable := by
  induction hn : s.client.conn.reads.length using Nat.strong_induction_on generalizing s with
  | _ n ih =>
      subst hn
      have h59 := C59_receive s.client
      rcases hr : s.client.receiveFrame with ⟨f | e' | k | _, d⟩
      · rw [hr] at h59
        rcases loop_step hr with ⟨out, ho, ⟨he, h1⟩ | ⟨he, h1⟩⟩ | ⟨k, ho, h1⟩
        · rw [h1]; exact ⟨h59.2.1, h59.1⟩
        · rw [h1]
          have := ih _ (receive_ok hr).1 ⟨d, out⟩ rfl
          exact ⟨this.1.trans h59.2.1, this.2.trans h59.1⟩
        · rw [h1]; exact ⟨h59.2.1, h59.1⟩
      all_goals
        rw [hr] at h59
        rw [receiveFrames, hr]
        exact ⟨h59.2.1, h59.1⟩

/-- C72. At whatever point the sample stops, what it has sent is a prefix of the sequence. -/
theorem C72_any_run [Platform] (conn : Conn) (cout : Stream) :
    ∃ p, p <+: sequence ∧
      (main ⟨Client.new conn, cout⟩).2.client.conn.sent = conn.sent ++ p := by
  have hseq : sequence = preface ++ (settingsOctets ++ ([] ++ ([] ++ ([] ++ (ackOctets ++ ([] ++
      (requestOctets ++ ([] ++ ([] ++ goawayOctets))))))))) := by
    unfold sequence; simp
  have hp : Emits DynamicTable.default (onClient Client.sendConnectionPreface) preface .default := by
    intro s hs
    have hp : bstr "PRI * HTTP/2.0\r\n\r\nSM\r\n\r\n" = preface := by decide +kernel
    obtain ⟨w, p, hpp, h1, h2⟩ := sendRaw_cases s.client preface
    unfold onClient Client.sendConnectionPreface
    simp only [hp, h1]
    exact ⟨p, hpp, rfl, fun a ha => ⟨h2 ha, hs⟩⟩
  have hu : Emits DynamicTable.default (onClient (·.updateRequestTableSize 8192)) [] ⟨[], 0, 8192⟩ := by
    intro s hs
    unfold onClient Client.updateRequestTableSize
    simp only [hs, table_resize]
    exact ⟨[], List.prefix_refl _, by simp, fun a _ => by simp⟩
  obtain ⟨f, hf1, hf2, hf3⟩ := request_serialize
  have hreq : ∀ k : HeadersFrame → State → Res Unit × State, ∀ b,
      AtMost ⟨[], 0, 8192⟩ (k f) b →
      AtMost ⟨[], 0, 8192⟩ (andThen (fun s => (requestFrame s.client.requestTable, s)) k) ([] ++ b) := by
    intro k b hk s hs
    unfold andThen
    simp only [hs, hf1]
    exact hk s hs
  have hupd : Emits ⟨[], 0, 8192⟩ (onClient (·.updateRequestDynamicTable f.headerBlock)) []
      ⟨[], 0, 8192⟩ := by
    intro s hs
    unfold onClient Client.updateRequestDynamicTable
    simp only [hs, hf3]
    exact ⟨[], List.prefix_refl _, by simp, fun a _ => by simp⟩
  have hloop : Emits ⟨[], 0, 8192⟩ receiveFrames [] ⟨[], 0, 8192⟩ := by
    intro s hs
    have := receiveFrames_sending s
    exact ⟨[], List.prefix_refl _, by rw [this.1, List.append_nil],
      fun a _ => ⟨rfl, this.2.trans hs⟩⟩
  rw [hseq]
  unfold main
  refine (hp.andThen fun _ => (emits_send _ settings_serialize).andThen fun _ => hu.andThen fun _ =>
    (emits_receive _).andThen fun g => (emits_print _ g).andThen fun _ =>
    (emits_send _ ack_serialize).andThen fun _ => hreq _ _ ((emits_send _ hf2).andThen fun _ =>
      hupd.andThen fun _ => hloop.andThen fun last => ?_)) ⟨Client.new conn, cout⟩ rfl
  intro s hs
  split
  · obtain ⟨p, h1, h2, -⟩ := emits_send _ goaway_serialize s hs
    exact ⟨p, h1, h2⟩
  · exact ⟨[], List.nil_prefix, by simp⟩

/-- C72. A conforming server that holds an empty table of the default size decodes the request as
these four header fields and keeps its table. -/
theorem C72_request_meaning :
    ∃ items, BlockDecodes ⟨[], 4096⟩ requestBlock items ⟨[], 4096⟩ ∧
      fields items = [(ascii ":method", ascii "GET"), (ascii ":path", ascii "/httpbin/headers"),
        (ascii ":scheme", ascii "https"), (ascii ":authority", ascii "nghttp2.org")] := by
  have hit : ∀ (h : Header) (i : Nat), h.2 ≠ [] → staticTableEntries.lookup i = some h →
      InTables h .default := fun h i h1 h2 => Or.inl ⟨h1, i, h2⟩
  have miss : ∀ h : Header, (staticTableEntries.all fun e => decide (e.2 ≠ h)) = true →
      ¬ InTables h .default := by
    rintro h ha (⟨-, i, hi⟩ | hm)
    · exact of_decide_eq_true (List.all_eq_true.1 ha _ (lookup_mem hi)) rfl
    · cases hm
  have hs : List.Forall₂ (SentAs .default)
      [⟨.indexed, .header (bstr ":method", bstr "GET")⟩,
       ⟨.neverIndexed, .header (bstr ":path", bstr "/httpbin/headers")⟩,
       ⟨.indexed, .header (bstr ":scheme", bstr "https")⟩,
       ⟨.neverIndexed, .header (bstr ":authority", bstr "nghttp2.org")⟩]
      [.indexed (bstr ":method", bstr "GET"), .neverIndexed (bstr ":path", bstr "/httpbin/headers"),
       .indexed (bstr ":scheme", bstr "https"),
       .neverIndexed (bstr ":authority", bstr "nghttp2.org")] :=
    .cons (.hit _ _ (by decide) (hit _ 2 (by decide +kernel) (by decide +kernel)))
      (.cons (.neverIndexed _ (miss _ (by decide +kernel)))
        (.cons (.hit _ _ (by decide) (hit _ 7 (by decide +kernel) (by decide +kernel)))
          (.cons (.neverIndexed _ (miss _ (by decide +kernel))) .nil)))
  have hno : ∀ e : HeaderEntry, ¬ HitsDynamic .default e := by
    rintro e ⟨h, hh, hm, -⟩
    cases hm
  obtain ⟨bytes, h1, h2⟩ := block_rfc (mode := .huffman) hs (by
      intro e he h hh _
      simp only [List.mem_cons, List.not_mem_nil, or_false] at he
      rcases he with rfl | rfl | rfl | rfl <;> (injection hh with hh; subst hh; decide +kernel))
    (List.pairwise_of_forall fun a b _ => hno b) ⟨[], 4096⟩ (Or.inl (List.prefix_refl _))
  have h3 : encodeHeaderBlock [⟨.indexed, .header (bstr ":method", bstr "GET")⟩,
     ⟨.neverIndexed, .header (bstr ":path", bstr "/httpbin/headers")⟩,
     ⟨.indexed, .header (bstr ":scheme", bstr "https")⟩,
     ⟨.neverIndexed, .header (bstr ":authority", bstr "nghttp2.org")⟩] .huffman .default =
      .ok requestBlock := by decide +kernel
  rw [h3] at h1
  obtain rfl := Res.ok.inj h1
  exact ⟨_, h2, by decide +kernel⟩

attribute [local instance] x86 in
/-- The peer sends SETTINGS and a DATA frame with END_STREAM. -/
example : let s : State := ⟨Client.new ⟨[0, 0, 0, 4, 0, 0, 0, 0, 0, 0, 0, 1, 0, 1, 0, 0, 0, 1, 105], [],
      [9, 9, 9], [100, 100, 100, 100, 100]⟩, ⟨[], false⟩⟩
    (main s).1 = .ok () ∧ (main s).2.client.conn.sent = sequence := by decide +kernel

attribute [local instance] x86 in
/-- The peer sends SETTINGS and closes. -/
example : let s : State := ⟨Client.new ⟨[0, 0, 0, 4, 0, 0, 0, 0, 0], [],
      [9, 9, 9], [100, 100, 100, 100, 100]⟩, ⟨[], false⟩⟩
    (main s).1 = .throw .runtimeError ∧
    (main s).2.client.conn.sent = preface ++ settingsOctets ++ ackOctets ++ requestOctets := by
  decide +kernel

end Mh2c.Sample
