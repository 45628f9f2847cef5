/-
C99: the sample stops when the response is complete. C73 for the sample's main program.
-/
import Verif.Props.Total

namespace Mh2c.Sample

open Rfc

/-! ## C73 -/

theorem andThen_ends {α β : Type} {f : State → Res α × State} {g : α → State → Res β × State}
    (hf : ∀ s, (f s).1 ≠ .diverge) (hg : ∀ a s, (g a s).1 ≠ .diverge) (s : State) :
    (andThen f g s).1 ≠ .diverge := by
  unfold andThen
  have := hf s
  rcases h : f s with ⟨a | e | k | _, s1⟩
  · exact hg a s1
  · simp
  · simp
  · rw [h] at this
    exact absurd rfl this

theorem sendFrame_ends [Platform] (f : Frame) (s : State) :
    (onClient (·.sendFrame f) s).1 ≠ .diverge := C73_client s.client (.sendFrame f)

theorem requestFrame_ends (t : DynamicTable) : requestFrame t ≠ .diverge := by
  unfold requestFrame
  refine bind_ne_diverge ?_ fun block _ => ?_
  · decide +kernel
  · unfold HeadersFrame.new HeadersFrame.constructEncodedPayload
    refine bind_ne_diverge (bind_ne_diverge ?_ fun _ _ => bind_ne_diverge
      (encodeHeaderBlock_ne_diverge _ _ _) fun _ _ => ?_) fun _ _ => ?_
    · simp
    · simp
    · simp

/-- C73. The whole sample program ends, whatever the server sends: it returns, throws or is
undefined. -/
theorem C73_sample [Platform] (s : State) : (main s).1 ≠ .diverge := by
  unfold main
  refine andThen_ends (fun s => C73_client s.client .sendPreface) (fun _ => ?_) s
  refine andThen_ends (sendFrame_ends _) fun _ => ?_
  refine andThen_ends (fun s => C73_client s.client (.updateRequestSize 8192)) fun _ => ?_
  refine andThen_ends (fun s => receiveFrame_ne_diverge s.client) fun f => ?_
  refine andThen_ends (fun s => ?_) fun _ => ?_
  · unfold print
    have := C73_print f s.cout
    cases h : f.dump s.cout with
    | diverge => exact absurd h this
    | _ => simp
  refine andThen_ends (sendFrame_ends _) fun _ => ?_
  refine andThen_ends (fun s => requestFrame_ends _) fun hf => ?_
  refine andThen_ends (sendFrame_ends _) fun _ => ?_
  refine andThen_ends (fun s => C73_client s.client (.updateRequestBlock _)) fun _ => ?_
  refine andThen_ends C66_ends fun last s => ?_
  split
  · exact sendFrame_ends _ s
  · simp

/-! ## C99 -/

/-- Frames that receive_frame returns are of the class their type octet says. -/
theorem endsLoop_header [Platform] {c d : Client} {f : Frame} (h : c.receiveFrame = (.ok f, d)) :
    EndsLoop f ↔ (f.header.type = 0 ∧ hasEndStream f.header.flags) ∨ f.header.type = 7 := by
  obtain ⟨-, fh, raw, hb, -⟩ := receive_ok h
  have hb := built_of_ok hb
  have ht := hb.type
  cases hb with
  | data h1 =>
      have : (Frame.data (DataFrame.new fh.flags fh.streamId raw)).header.type = 0 := ht.trans h1
      simp only [this]
      simp [EndsLoop, Frame.header]
  | goaway h1 f _ =>
      rw [ht, h1]
      simp [EndsLoop]
  | headers h1 | rawHeaders h1 | priority h1 | rstStream h1 | settings h1 | pushPromise h1 | ping h1
  | windowUpdate h1 | continuation h1 =>
      rw [ht, h1]
      simp [EndsLoop]

theorem received_mem [Platform] {c c' : Client} {gs : List Frame} (h : Received c gs c') :
    ∀ f ∈ gs, ∃ d d' : Client, d.receiveFrame = (.ok f, d') := by
  induction h with
  | nil => simp
  | cons c c1 c' g gs h1 h ih =>
      intro f hf
      rcases List.mem_cons.1 hf with rfl | hf
      · exact ⟨c, c1, h1⟩
      · exact ih f hf

theorem endsLoop_iff [Platform] {c d : Client} {f : Frame} (h : c.receiveFrame = (.ok f, d))
    (hf : EndsWithData f) : EndsLoop f ↔ EndsResponse f := by
  rw [endsLoop_header h]
  unfold EndsResponse
  obtain ⟨h0, h1, h3⟩ := hf
  constructor
  · rintro (⟨a, b⟩ | a)
    · exact .inl ⟨h0 a, .inl ⟨a, b⟩⟩
    · exact .inr a
  · rintro (⟨a, b | ⟨b, d⟩ | b⟩ | a)
    · exact .inl b
    · exact absurd d (h1 b a)
    · exact absurd a (h3 b)
    · exact .inr a

/-- C99. If the response ends with a DATA frame, and DATA comes on stream 1 only, the loop returns at
the frame that ends the response, having received and printed everything up to it. Missing: responses
that end with HEADERS or RST_STREAM, and DATA frames of other streams; see below. -/
theorem C99_returns_partial [Platform] (s : State) (gs : List Frame) (g : Frame) (c : Client)
    (out : Stream) (h : Received s.client (gs ++ [g]) c) (hp : Prints (gs ++ [g]) s.cout out)
    (hd : ∀ f ∈ gs ++ [g], EndsWithData f) (hgs : ∀ f ∈ gs, ¬ EndsResponse f)
    (hg : EndsResponse g) : receiveFrames s = (.ok g.header.type, ⟨c, out⟩) := by
  have hm := received_mem h
  have iff : ∀ f ∈ gs ++ [g], (EndsLoop f ↔ EndsResponse f) := fun f hf => by
    obtain ⟨d, d', h1⟩ := hm f hf
    exact endsLoop_iff h1 (hd f hf)
  exact (C66_returns s ⟨c, out⟩ g.header.type).2
    ⟨gs, g, h, hp, fun f hf he => hgs f hf ((iff f (by simp [hf])).1 he),
      (iff g (by simp)).2 hg, rfl⟩

/-- C99. The other way round: under the same conditions a loop that has returned has received the
whole response and nothing after it. Missing: as above. -/
theorem C99_complete_partial [Platform] (s s' : State) (type : UInt8)
    (h : receiveFrames s = (.ok type, s')) :
    ∃ gs g, Received s.client (gs ++ [g]) s'.client ∧
      ((∀ f ∈ gs ++ [g], EndsWithData f) → EndsResponse g ∧ ∀ f ∈ gs, ¬ EndsResponse f) := by
  obtain ⟨gs, g, h1, -, h3, h4, -⟩ := (C66_returns s s' type).1 h
  refine ⟨gs, g, h1, fun hd => ?_⟩
  have iff : ∀ f ∈ gs ++ [g], (EndsLoop f ↔ EndsResponse f) := fun f hf => by
    obtain ⟨d, d', h⟩ := received_mem h1 f hf
    exact endsLoop_iff h (hd f hf)
  exact ⟨(iff g (by simp)).1 h4, fun f hf he => h3 f hf ((iff f (by simp [hf])).2 he)⟩

/-- The state in which the loop starts if the server answers `response` and then closes. -/
def after (response : Bytes) : State :=
  ⟨Client.new ⟨response, [], List.replicate 10 100, []⟩, ⟨[], false⟩⟩

instance (f : Frame) : Decidable (EndsResponse f) := by unfold EndsResponse; infer_instance
instance (f : Frame) : Decidable (EndsWithData f) := by unfold EndsWithData; infer_instance

/-- SETTINGS, then the response: HEADERS `:status 200`, DATA, DATA with END_STREAM; then a PING. -/
def ordinary : Bytes :=
  [0, 0, 0, 4, 0, 0, 0, 0, 0] ++ [0, 0, 1, 1, 4, 0, 0, 0, 1, 0x88] ++
    [0, 0, 1, 0, 0, 0, 0, 0, 1, 104] ++ [0, 0, 1, 0, 1, 0, 0, 0, 1, 105] ++
    [0, 0, 8, 6, 0, 0, 0, 0, 0, 1, 2, 3, 4, 5, 6, 7, 8]

/-- The frame a call returns. -/
def frameOf (r : Res Frame × Client) : Option Frame :=
  match r.1 with
  | .ok f => some f
  | _ => none

attribute [local instance] x86 in
/-- The four frames meet the conditions; only the last ends the response. -/
example : let c0 := (after ordinary).client
    let c1 := c0.receiveFrame.2
    let c2 := c1.receiveFrame.2
    let c3 := c2.receiveFrame.2
    [c0, c1, c2, c3].map (fun c => (frameOf c.receiveFrame).map
      fun f => (decide (EndsWithData f), decide (EndsResponse f))) =
      [some (true, false), some (true, false), some (true, false), some (true, true)] := by
  decide +kernel

attribute [local instance] x86 in
example : (receiveFrames (after ordinary)).1 = .ok 0 ∧
    (receiveFrames (after ordinary)).2.client.conn.incoming =
      [0, 0, 8, 6, 0, 0, 0, 0, 0, 1, 2, 3, 4, 5, 6, 7, 8] := by decide +kernel

attribute [local instance] x86 in
/-- C99 is false of the code for a response without a body: HEADERS `:status 204` with END_STREAM on
stream 1 ends the response, but the loop reads on, and throws when the server closes. -/
theorem C99_no_body_violated :
    ((frameOf (after [0, 0, 1, 1, 5, 0, 0, 0, 1, 0x89]).client.receiveFrame).any
        fun f => decide (EndsResponse f)) = true ∧
      (receiveFrames (after [0, 0, 1, 1, 5, 0, 0, 0, 1, 0x89])).1 = .throw .runtimeError := by
  decide +kernel

attribute [local instance] x86 in
/-- C99 is false of the code for a response that is reset: RST_STREAM (REFUSED_STREAM) on stream 1. -/
theorem C99_reset_violated :
    ((frameOf (after [0, 0, 4, 3, 0, 0, 0, 0, 1, 0, 0, 0, 7]).client.receiveFrame).any
        fun f => decide (EndsResponse f)) = true ∧
      (receiveFrames (after [0, 0, 4, 3, 0, 0, 0, 0, 1, 0, 0, 0, 7])).1 = .throw .runtimeError := by
  decide +kernel

attribute [local instance] x86 in
/-- C99 is false of the code for DATA of another stream: END_STREAM on stream 3 ends the loop though
nothing of the response has come. -/
theorem C99_other_stream_violated :
    (receiveFrames (after ([0, 0, 1, 0, 1, 0, 0, 0, 3, 104] ++ ordinary))).1 = .ok 0 ∧
    (receiveFrames (after ([0, 0, 1, 0, 1, 0, 0, 0, 3, 104] ++ ordinary))).2.client.conn.incoming =
      ordinary := by decide +kernel

end Mh2c.Sample
