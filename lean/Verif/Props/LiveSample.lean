/-
Property C145: what the sample waits for.
-/
import Verif.Props.Live
import Verif.Props.Response

namespace Mh2c.Sample

open Rfc

theorem waits_step [Platform] {s : State} {f : Frame} {d : Client} {out : Stream}
    (h : s.client.receiveFrame = (.ok f, d)) (ho : f.dump s.cout = .ok out) :
    receiveFramesWaits s = true ↔ ¬ EndsLoop f ∧ receiveFramesWaits ⟨d, out⟩ = true := by
  have hw : s.client.receiveFrameWaits ≠ true := by
    intro hw
    have h1 := (C143_calls s.client).2.2.2.1 hw
    unfold frameLength announced at h1
    obtain ⟨r, -, ⟨k, -, -, h2⟩ | ⟨fh, -, -, h2, -⟩⟩ := receiveFrame_cases s.client
    · rw [h] at h2; cases h2
    · omega
  obtain ⟨hr, fh, raw, hb, -⟩ := receive_ok h
  rw [receiveFramesWaits, if_neg hw, h]
  simp only [ho]
  by_cases hm : isMoreData f.header = true
  · rw [if_pos hm, if_pos hr]
    exact ⟨fun h => ⟨fun he => (by rw [(isMoreData_iff hb).2 he] at hm; cases hm), h⟩, fun h => h.2⟩
  · rw [if_neg hm]
    exact ⟨nofun, fun h => absurd ((isMoreData_iff hb).1 (by simpa using hm)) h.1⟩

/-- C145, exactly: the loop waits for ever if and only if the frames that the server has sent completely can be
received and printed, there is no GOAWAY and no DATA with END_STREAM among them, and the call that is to receive the
next frame waits. Missing: that the response has not ended then, see `C145_ended_violated`. -/
theorem C145_exact_partial [Platform] (s : State) :
    receiveFramesWaits s = true ↔ ∃ gs c out, Received s.client gs c ∧ Prints gs s.cout out ∧
      (∀ f ∈ gs, ¬ EndsLoop f) ∧ c.receiveFrameWaits = true := by
  constructor
  · intro h
    induction hn : s.client.conn.reads.length using Nat.strong_induction_on generalizing s with
    | _ n ih =>
        subst hn
        by_cases hw : s.client.receiveFrameWaits = true
        · exact ⟨[], _, _, .nil _, .nil _, by simp, hw⟩
        rcases hr : s.client.receiveFrame with ⟨f | e | k | _, d⟩
        · cases ho : f.dump s.cout with
          | ok out =>
              obtain ⟨h1, h2⟩ := (waits_step hr ho).1 h
              obtain ⟨gs, c, out', i1, i2, i3, i4⟩ := ih _ (receive_ok hr).1 ⟨d, out⟩ h2 rfl
              refine ⟨f :: gs, c, out', .cons _ _ _ _ _ hr i1, .cons _ _ _ _ _ ho i2, ?_, i4⟩
              intro x hx
              rcases List.mem_cons.1 hx with rfl | hx
              · exact h1
              · exact i3 x hx
          | _ => rw [receiveFramesWaits, if_neg hw, hr] at h; simp only [ho] at h; cases h
        all_goals
          rw [receiveFramesWaits, if_neg hw, hr] at h
          cases h
  · rintro ⟨gs, c, out, h1, h2, h3, h4⟩
    induction gs generalizing s with
    | nil =>
        cases h1
        rw [receiveFramesWaits, if_pos h4]
    | cons f gs ih =>
        cases h1 with
        | cons _ d _ _ _ hr hn =>
            cases h2 with
            | cons _ _ _ o1 _ ho hm =>
                exact (waits_step hr ho).2 ⟨h3 f (by simp), ih ⟨d, o1⟩ hn hm fun x hx => h3 x (by simp [hx])⟩

/-- C145, the part that holds: if responses end with DATA, and DATA comes on stream 1 only, then the loop waits for
ever only if the server has not sent the end of the response, nor GOAWAY, and has not sent all of its next frame.
Missing: responses that end with HEADERS or RST_STREAM, see `C145_ended_violated`. -/
theorem C145_data_partial [Platform] (s : State) (h : receiveFramesWaits s = true) :
    ∃ gs c, Received s.client gs c ∧ c.conn.incoming.length < frameLength c.conn.incoming ∧
      ((∀ f ∈ gs, EndsWithData f) → ∀ f ∈ gs, ¬ EndsResponse f) := by
  obtain ⟨gs, c, out, h1, -, h3, h4⟩ := (C145_exact_partial s).1 h
  refine ⟨gs, c, h1, (C143_calls c).2.2.2.1 h4, fun hd f hf he => h3 f hf ?_⟩
  obtain ⟨d, d', h⟩ := received_mem h1 f hf
  exact (endsLoop_iff h (hd f hf)).2 he

/-- C145 is false of the code: the loop waits for ever for more, whenever the server ends the response with HEADERS
or RST_STREAM, and sends nothing after that. -/
theorem C145_ended_violated [Platform] (s : State) (f : Frame) (c : Client) (out : Stream)
    (h : s.client.receiveFrame = (.ok f, c)) (hf : f.header.streamId = 1 ∧
      (f.header.type = 1 ∧ hasEndStream f.header.flags ∨ f.header.type = 3))
    (ho : f.dump s.cout = .ok out) (hi : c.conn.incoming = []) (hw : Willing c.conn.reads 9) :
    EndsResponse f ∧ receiveFramesWaits s = true := by
  refine ⟨Or.inl ⟨hf.1, Or.inr hf.2⟩, (waits_step h ho).2 ⟨fun he => ?_, ?_⟩⟩
  · rcases (endsLoop_header h).1 he with ⟨h1, -⟩ | h1 <;> rcases hf.2 with ⟨h2, -⟩ | h2 <;>
      rw [h1] at h2 <;> revert h2 <;> decide
  · rw [receiveFramesWaits, if_pos]
    refine ((C143_calls c).2.2.2.2.1 ?_).2 ?_
    · rw [hi]; exact hw
    · rw [hi]; decide

attribute [local instance] x86 in
/-- Non-vacuity of `C145_ended_violated`: `:status 204` with END_STREAM, and RST_STREAM; a server that closes the
connection afterwards ends the waiting (C99). -/
example : let t := fun response => (⟨Client.new ⟨response, [], List.replicate 20 100, []⟩, ⟨[], false⟩⟩ : State)
    let s := t [0, 0, 1, 1, 5, 0, 0, 0, 1, 0x89]
    let r := t [0, 0, 4, 3, 0, 0, 0, 0, 1, 0, 0, 0, 7]
    (receiveFramesWaits s = true ∧ s.client.receiveFrame.2.conn.incoming = [] ∧
      Willing s.client.receiveFrame.2.conn.reads 9) ∧
    (receiveFramesWaits r = true ∧ r.client.receiveFrame.2.conn.incoming = []) ∧
    receiveFramesWaits (t ordinary) = false ∧ receiveFramesWaits (t (ordinary.take 30)) = true := by
  decide +kernel

end Mh2c.Sample
