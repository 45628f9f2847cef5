/-
C112: putting a message body together from its DATA frames.
-/
import Verif.Spec.Body
import Verif.Props.Accessors
import Verif.Props.ServerStream

namespace Mh2c

open Rfc

/-- What one received frame adds to the body. -/
theorem body_step [Platform] {c c1 : Client} {f : Frame} {w : WireFrame} {rest : Bytes}
    (hw : w.Fits) (hi : c.conn.incoming = w.octets ++ rest) (h : c.receiveFrame = (.ok f, c1)) :
    c1.conn.incoming = rest ∧ f.header.type = w.type ∧ f.header.flags = w.flags ∧
      f.header.streamId = w.streamId ∧ (w.type = 0 → f.getPayload = .octets w.payload) := by
  have hok : c.receiveFrame.1 = .ok f := by rw [h]
  obtain ⟨f1, f2, f3, f4, f5⟩ := front_frame w.type w.flags w.streamId w.payload rest hw.2 hw.1
  obtain ⟨reads', -, ⟨k, h1, h2, h3⟩ | ⟨fh, h1, h2, h3, -, h5⟩⟩ := receiveFrame_cases c
  · rw [h3] at hok; cases hok
  · unfold WireFrame.octets at hi
    rw [hi, f2] at h5
    rw [hi, f3] at h1
    rw [f4, processFrame_eq] at h5
    obtain rfl := (Res.ok.inj h1).symm
    simp only [Client.consumed] at h5
    rw [hi, f5, h] at h5
    obtain ⟨e1, e2⟩ := Prod.mk.inj h5
    have hb : Built ⟨castToFhLength w.payload.length, w.type, w.flags, 0, w.streamId⟩ w.payload
        c.responseTable f := by
      refine built_of_ok ?_
      unfold processTable at e1
      cases hf : buildFrame ⟨castToFhLength w.payload.length, w.type, w.flags, 0, w.streamId⟩
          w.payload c.responseTable with
      | ok g =>
          rw [hf] at e1
          simp only at e1
          rcases hu : updateDynamicTableFrame g c.responseTable with ⟨_ | _ | _ | _, t'⟩ <;>
            rw [hu] at e1 <;> cases e1
          rfl
      | _ => rw [hf] at e1; cases e1
    obtain ⟨g1, g2, -⟩ := built_header hb
    refine ⟨by rw [e2], hb.type, g1, g2, fun h0 => ?_⟩
    cases hb with
    | data _ => rfl
    | headers ht => rw [show w.type = 1 from ht] at h0; cases h0
    | rawHeaders ht => rw [show w.type = 1 from ht] at h0; cases h0
    | _ =>
        rename_i ht _ _
        simp only [h0] at ht
        cases ht

/-- The octets of all frames. -/
theorem body_steps [Platform] (sid : UInt32) (ws : List WireFrame) (rest : Bytes) (c c' : Client)
    (frames : List Frame) (hw : ∀ w ∈ ws, w.Fits)
    (hi : c.conn.incoming = ws.flatMap WireFrame.octets ++ rest) (hr : Received c frames c')
    (hl : frames.length = ws.length) :
    bodyReceived sid frames =
      ws.flatMap fun w => if w.type = 0 ∧ w.streamId = sid then w.payload else [] := by
  induction ws generalizing c frames with
  | nil =>
      obtain rfl := List.eq_nil_of_length_eq_zero hl
      rfl
  | cons w ws ih =>
      cases hr with
      | nil => cases hl
      | cons _ d1 _ g gs h1 hr =>
          rw [List.flatMap_cons, List.append_assoc] at hi
          obtain ⟨e1, e2, -, e4, e5⟩ := body_step (hw w (List.mem_cons_self ..)) hi h1
          have := ih d1 gs (fun v hv => hw v (List.mem_cons_of_mem _ hv)) e1 hr (by simpa using hl)
          unfold bodyReceived at this ⊢
          rw [List.flatMap_cons, List.flatMap_cons, this, e2, e4]
          by_cases h0 : w.type = 0 ∧ w.streamId = sid
          · rw [if_pos h0, if_pos h0, e5 h0.1]
          · rw [if_neg h0, if_neg h0]

/-- C112, the part that holds. If none of the DATA frames on a stream has padding, then what the
caller puts together from `get_payload` is the body that was sent, however it was cut into frames,
whatever other frames came in between and however the transport cut the octets. Missing: frames with
padding, for which it is false, see below. -/
theorem C112_body_partial [Platform] (sid : UInt32) (ws : List WireFrame) (rest : Bytes)
    (c c' : Client) (frames : List Frame) (hw : ∀ w ∈ ws, w.Fits)
    (hi : c.conn.incoming = ws.flatMap WireFrame.octets ++ rest) (hr : Received c frames c')
    (hl : frames.length = ws.length)
    (hp : ∀ w ∈ ws, w.type = 0 → w.streamId = sid → ¬ hasPadded w.flags) :
    BodySent sid ws (bodyReceived sid frames) := by
  rw [body_steps sid ws rest c c' frames hw hi hr hl]
  clear hi hr hl hw
  induction ws with
  | nil => exact .nil
  | cons w ws ih =>
      have := ih fun v hv => hp v (List.mem_cons_of_mem _ hv)
      rw [List.flatMap_cons]
      by_cases h0 : w.type = 0 ∧ w.streamId = sid
      · rw [if_pos h0]
        exact .data w ws _ _ h0.1 h0.2 (.plain _ (hp w (List.mem_cons_self ..) h0.1 h0.2)) this
      · rw [if_neg h0]
        exact .other w ws _ h0 this

theorem sent_length {sid : UInt32} {ws : List WireFrame} {body : Bytes} (h : BodySent sid ws body) :
    body.length + (ws.filter fun w => w.type = 0 ∧ w.streamId = sid ∧ hasPadded w.flags).length ≤
      (ws.flatMap fun w => if w.type = 0 ∧ w.streamId = sid then w.payload else []).length := by
  induction h with
  | nil => simp
  | other w ws body h hr ih =>
      rw [List.flatMap_cons, if_neg h, List.nil_append, List.filter_cons_of_neg]
      · exact ih
      · simp only [decide_eq_true_eq]
        exact fun hn => h ⟨hn.1, hn.2.1⟩
  | data w ws content body ht hs hc hr ih =>
      rw [List.flatMap_cons, if_pos ⟨ht, hs⟩, List.length_append, List.length_append]
      generalize hpay : w.payload = p at hc
      cases hc with
      | plain _ hn =>
          rw [List.filter_cons_of_neg]
          · omega
          · simp only [decide_eq_true_eq]
            exact fun h => hn h.2.2
      | padded pad content padding hpd hl =>
          rw [List.filter_cons_of_pos]
          · simp only [List.length_cons, List.length_append]
            omega
          · simp only [decide_eq_true_eq]
            exact ⟨ht, hs, hpd⟩

/-- C112, where it fails: as soon as one DATA frame on the stream has padding - a single octet is
enough, and servers pad to hide lengths - what the caller puts together is not the body, but longer. -/
theorem C112_padded_violated [Platform] (sid : UInt32) (ws : List WireFrame) (rest : Bytes)
    (c c' : Client) (frames : List Frame) (hw : ∀ w ∈ ws, w.Fits)
    (hi : c.conn.incoming = ws.flatMap WireFrame.octets ++ rest) (hr : Received c frames c')
    (hl : frames.length = ws.length) (w : WireFrame) (hm : w ∈ ws) (h0 : w.type = 0)
    (hs : w.streamId = sid) (hp : hasPadded w.flags) (body : Bytes) (hb : BodySent sid ws body) :
    body.length < (bodyReceived sid frames).length := by
  have h1 := sent_length hb
  rw [← body_steps sid ws rest c c' frames hw hi hr hl] at h1
  have h2 : 0 < (ws.filter fun w => w.type = 0 ∧ w.streamId = sid ∧ hasPadded w.flags).length :=
    List.length_pos_of_mem (List.mem_filter.2 ⟨hm, by simpa using ⟨h0, hs, hp⟩⟩)
  omega

attribute [local instance] x86 in
/-- Two DATA frames with a PING in between. -/
example : ∃ frames c', Received (Client.new ⟨
      [⟨0, 0, 1, bstr "ab"⟩, ⟨6, 0, 0, List.replicate 8 0⟩, (⟨0, 1, 1, bstr "c"⟩ : WireFrame)].flatMap
        WireFrame.octets, [], [9, 2, 9, 4, 4, 9, 1], []⟩) frames c' ∧
    frames.length = 3 ∧ bodyReceived 1 frames = bstr "abc" :=
  ⟨_, _, .cons _ _ _ _ _ rfl (.cons _ _ _ _ _ rfl (.cons _ _ _ _ _ rfl (.nil _))), by decide +kernel⟩

attribute [local instance] x86 in
/-- The same data with one octet of padding in the first frame. -/
example : BodySent 1 [⟨0, 8, 1, [1, 97, 98, 0]⟩, ⟨0, 1, 1, bstr "c"⟩] (bstr "abc") ∧
    ∃ frames c', Received (Client.new ⟨
      [⟨0, 8, 1, [1, 97, 98, 0]⟩, (⟨0, 1, 1, bstr "c"⟩ : WireFrame)].flatMap
        WireFrame.octets, [], [9, 4, 9, 1], []⟩) frames c' ∧
    frames.length = 2 ∧ bodyReceived 1 frames = [1, 97, 98, 0, 99] :=
  ⟨.data _ _ [97, 98] [99] rfl rfl (.padded 1 [97, 98] [0] (by decide) rfl)
    (.data _ _ [99] [] rfl rfl (.plain _ (by decide)) .nil),
   _, _, .cons _ _ _ _ _ rfl (.cons _ _ _ _ _ rfl (.nil _)), by decide +kernel⟩

end Mh2c
