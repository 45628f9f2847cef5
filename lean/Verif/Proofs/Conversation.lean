/-
Helper lemmas for C47: one frame from sender to receiver.
-/
import Verif.Spec.Conversation
import Verif.Props.HeaderFrames
import Verif.Props.Transport
import Verif.Proofs.Session

namespace Mh2c

open Rfc

/-- The table part of `Client.follow`. -/
def followTable (f : Frame) (t : DynamicTable) : Res Unit × DynamicTable :=
  match f with
  | .headers f => updateDynamicTable f.headerBlock t
  | .pushPromise f => updateDynamicTable f.payload.headerBlock t
  | .continuation f => updateDynamicTable f.headerBlock t
  | .settings f =>
      match f.payload.lookup 1 with
      | some size =>
          match t.updateTableSize size.toNat with
          | .ok t' => (.ok (), t')
          | .throw x => (.throw x, t)
          | .ub k => (.ub k, t)
          | .diverge => (.diverge, t)
      | none => (.ok (), t)
  | _ => (.ok (), t)

theorem follow_eq (c : Client) (f : Frame) :
    c.follow f = ((followTable f c.requestTable).1,
      { c with requestTable := (followTable f c.requestTable).2 }) := by
  cases f <;> try rfl
  rename_i f
  unfold Client.follow followTable
  simp only
  cases f.payload.lookup 1 with
  | none => rfl
  | some size =>
      simp only [Client.updateRequestTableSize]
      cases c.requestTable.updateTableSize size.toNat <;> rfl

/-- One proper frame: its octets, the frame the other side builds, what that does to its table. -/
theorem proper_frame [Platform] {t : DynamicTable} {f : Frame} (hf : Proper t f)
    (ht : t.entries.length ≤ 2 ^ 31 + 65) :
    ∃ (type flags : UInt8) (sid : UInt32) (payload : Bytes) (g : Frame), payload.length < 2 ^ 24 ∧
      sid.toNat < 2 ^ 31 ∧ f.serialize = .ok (frameOctets type flags sid.toNat payload) ∧
      buildFrame ⟨castToFhLength payload.length, type, flags, 0, sid⟩ payload t = .ok g ∧
      SameFrame f g ∧ updateDynamicTableFrame g t = followTable f t := by
  have fin : ∀ {f g : Frame} {type flags : UInt8} {sid : UInt32} {payload : Bytes},
      payload.length < 2 ^ 24 → sid.toNat < 2 ^ 31 →
      f.serialize = .ok (frameOctets type flags sid.toNat payload) →
      reparse (frameOctets type flags sid.toNat payload) t = .ok g → SameFrame f g →
      (Built ⟨castToFhLength payload.length, type, flags, 0, sid⟩ payload t g →
        updateDynamicTableFrame g t = followTable f t) →
      ∃ (type flags : UInt8) (sid : UInt32) (payload : Bytes) (g : Frame), payload.length < 2 ^ 24 ∧
        sid.toNat < 2 ^ 31 ∧ f.serialize = .ok (frameOctets type flags sid.toNat payload) ∧
        buildFrame ⟨castToFhLength payload.length, type, flags, 0, sid⟩ payload t = .ok g ∧
        SameFrame f g ∧ updateDynamicTableFrame g t = followTable f t := by
    intro f g type flags sid payload h1 h2 h3 h4 h5 h6
    rw [reparse_frame _ _ _ _ h1 h2] at h4
    exact ⟨type, flags, sid, payload, g, h1, h2, h3, h4, h5, h6 (built_of_ok h4)⟩
  cases hf with
  | data flags sid payload hs hp =>
      obtain ⟨h1, h2⟩ := C36_data_round_trip flags sid payload t hs hp
      exact fin hp hs h1 h2 rfl updateFrame_built
  | headers flags sid block mode padding priority f hs hb hp hnp he hd hnz hf hl =>
      obtain ⟨enc, e1, h⟩ := C37_headers_round_trip flags sid block mode t padding priority hs hb.1
        ht hp hnp he hd hnz
      have hpay : f.encodedPayload = withPadding flags (withPriority flags priority enc) padding := by
        unfold HeadersFrame.new at hf
        rw [headers_encoded (fun _ => he) (fun _ => hd) e1] at hf
        rw [← Res.ok.inj hf]
      obtain ⟨f', g, a1, a2, a3, -, -, -, -, -, a4, a5, a6⟩ := h _ rfl (by rw [← hpay]; exact hl)
      rw [hf] at a1
      obtain rfl := (Res.ok.inj a1).symm
      rw [← hpay] at a2 a3
      refine fin hl hs a2 a3 (a6 hb.2) fun hbuilt => ?_
      rw [updateFrame_built hbuilt]
      simp only [followTable]
      rw [a4, settled_eq a5 hb.2]
  | priority sid p f hs hf =>
      obtain ⟨h1, h2, -⟩ := C38_priority_round_trip sid p f t hs hf
      exact fin (by simp [priorityOctets, bitAnd31_length]) hs h1 h2 rfl updateFrame_built
  | rstStream sid code hs =>
      obtain ⟨h1, h2, -⟩ := C39_rst_stream_round_trip sid code t hs
      exact fin (by simp) hs h1 h2 rfl updateFrame_built
  | settings flags sid payload hs hm =>
      obtain ⟨h1, h2, -⟩ := C40_settings_round_trip flags sid payload t hs hm
      have := isMap_length hm
      exact fin (by rw [settingsOctets_length]; omega) hs h1 h2 rfl updateFrame_built
  | pushPromise flags sid p mode f hs hb hp hnp hr hd hf hl =>
      obtain ⟨enc, e1, h⟩ := C41_push_promise_round_trip flags sid p mode t hs hb.1 ht hp hnp hr hd
      have hpay : f.encodedPayload = withPadding flags
          (bitAnd31 p.reserved.toNat p.promisedStreamId.toNat ++ enc) p.padding := by
        have e2 := pushPromise_encoded (flags := flags) e1
        rw [Nat.mod_eq_of_lt (by omega : p.reserved.toNat < 2), Nat.mod_eq_of_lt hd] at e2
        unfold PushPromiseFrame.new at hf
        rw [e2] at hf
        rw [← Res.ok.inj hf]
      obtain ⟨f', g, a1, a2, a3, -, a4, -, -, -, a5, a6⟩ := h _ rfl (by rw [← hpay]; exact hl)
      rw [hf] at a1
      obtain rfl := (Res.ok.inj a1).symm
      rw [← hpay] at a2 a3
      refine fin hl hs a2 a3 (a6 hb.2) fun hbuilt => ?_
      rw [updateFrame_built hbuilt]
      simp only [followTable]
      rw [a4, settled_eq a5 hb.2]
  | ping flags data f hf =>
      have hlen : data.length ≤ 8 := by
        by_contra hc
        rw [(C42_ping_round_trip flags data t).2 (by omega)] at hf
        cases hf
      obtain ⟨f', h1, -, h8, h2, h3⟩ := (C42_ping_round_trip flags data t).1 hlen
      rw [hf] at h1
      obtain rfl := (Res.ok.inj h1).symm
      exact fin (sid := 0) (by omega) (by decide) h2 h3 rfl updateFrame_built
  | goaway p hr hl hd =>
      obtain ⟨h1, h2, -⟩ := C43_goaway_round_trip p t hr hl hd
      exact fin (sid := 0) (by simp [goawayOctets, bitAnd31_length]; omega) (by decide) h1 h2 rfl
        updateFrame_built
  | windowUpdate sid reserved increment f hs hr hf =>
      have hi : increment.toNat < 2 ^ 31 := by
        by_contra hc
        rw [(C44_window_update_round_trip sid reserved increment t hs hr).2 (by omega)] at hf
        cases hf
      obtain ⟨f', h1, -, -, h2, h3⟩ :=
        (C44_window_update_round_trip sid reserved increment t hs hr).1 hi
      rw [hf] at h1
      obtain rfl := (Res.ok.inj h1).symm
      exact fin (by rw [bitAnd31_length]; omega) hs h2 h3 rfl updateFrame_built
  | continuation flags sid block mode f hs hb hf hl =>
      obtain ⟨payload, e1, h⟩ := C45_continuation_round_trip flags sid block mode t hs hb.1 ht
      have hpay : f.encodedPayload = payload := by
        unfold ContinuationFrame.new at hf
        rw [e1] at hf
        rw [← Res.ok.inj hf]
      obtain ⟨f', g, a1, a2, a3, -, a4, a5, a6⟩ := h (by rw [← hpay]; exact hl)
      rw [hf] at a1
      obtain rfl := (Res.ok.inj a1).symm
      rw [← hpay] at a2 a3
      refine fin hl hs a2 a3 (a6 hb.2) fun hbuilt => ?_
      rw [updateFrame_built hbuilt]
      simp only [followTable]
      rw [a4, settled_eq a5 hb.2]

end Mh2c
