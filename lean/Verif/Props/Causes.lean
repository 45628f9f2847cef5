/-
C120: the type of an exception tells what happened.
-/
import Verif.Proofs.Causes
import Verif.Props.Transport
import Verif.Props.Frames
import Verif.Props.HeaderFrames

namespace Mh2c

open Rfc

/-! ## C120 -/

/-- What a call of `receive_frame` that read a whole frame throws, and why. -/
theorem buildFrame_throw [Platform] {fh : FrameHeader} {raw : Bytes} {t : DynamicTable} {e : Exc}
    (h : buildFrame fh raw t = .throw e) :
    (e = .invalidArgument ∧
      (WrongLength fh.type raw ∨ ((fh.type = 5 ∨ fh.type = 9) ∧ BadHuffman raw))) ∨
    (e = .outOfRange ∧
      (9 < fh.type.toNat ∨ ((fh.type = 5 ∨ fh.type = 9) ∧ MissingIndex raw t.entries))) := by
  have key : ∀ (x : Res Frame) (P : Prop), (P → x = .throw .invalidArgument) →
      (¬ P → ∃ f, x = .ok f) → x = .throw e → e = .invalidArgument ∧ P := by
    intro x P h1 h2 h3
    by_cases hP : P
    · exact ⟨by rw [h1 hP] at h3; exact (Res.throw.inj h3).symm, hP⟩
    · obtain ⟨f, hf⟩ := h2 hP
      rw [hf] at h3; cases h3
  rcases type_cases fh.type with g | g | g | g | g | g | g | g | g | g | g
  · rw [buildFrame_data _ _ _ g, buildDataFrame] at h; cases h
  · rw [buildFrame_headers _ _ _ g, buildHeadersFrame] at h
    split at h <;> cases h
  · obtain ⟨h1, h2⟩ := C49_priority fh g raw t
    obtain ⟨he, hl⟩ := key _ (raw.length < 5) h1
      (fun hn => by obtain ⟨f, hf, -⟩ := h2 (by omega); exact ⟨_, hf⟩) h
    exact Or.inl ⟨he, Or.inl (Or.inl ⟨g, hl⟩)⟩
  · obtain ⟨h1, h2⟩ := C49_rst_stream fh g raw t
    obtain ⟨he, hl⟩ := key _ (raw.length < 4) h1
      (fun hn => by obtain ⟨f, hf, -⟩ := h2 (by omega); exact ⟨_, hf⟩) h
    exact Or.inl ⟨he, Or.inl (Or.inr (Or.inl ⟨g, hl⟩))⟩
  · rw [buildFrame_settings _ _ _ g, buildSettingsFrame] at h
    rcases bind_eq_throw h with h1 | ⟨_, -, h2⟩
    · exact absurd h1 (parseSettings_ne_throw _ _ _)
    · cases h2
  · rw [buildFrame_pushPromise _ _ _ g] at h
    rcases bind_eq_throw h with h1 | ⟨_, -, h2⟩
    · rcases pushPromise_throw h1 with ⟨he, hc⟩ | ⟨he, hc⟩
      · exact Or.inl ⟨he, Or.inr ⟨Or.inl g, hc⟩⟩
      · exact Or.inr ⟨he, Or.inr ⟨Or.inl g, hc⟩⟩
    · cases h2
  · rw [buildFrame_ping _ _ _ g] at h
    cases h
  · obtain ⟨h1, h2⟩ := C49_goaway fh g raw t
    obtain ⟨he, hl⟩ := key _ (raw.length < 8) h1
      (fun hn => by obtain ⟨f, hf, -⟩ := h2 (by omega); exact ⟨_, hf⟩) h
    exact Or.inl ⟨he, Or.inl (Or.inr (Or.inr (Or.inl ⟨g, hl⟩)))⟩
  · obtain ⟨h1, h2⟩ := C49_window_update fh g raw t
    obtain ⟨he, hl⟩ := key _ (raw.length ≠ 4) h1
      (fun hn => by obtain ⟨f, hf, -⟩ := h2 (by omega); exact ⟨_, hf⟩) h
    exact Or.inl ⟨he, Or.inl (Or.inr (Or.inr (Or.inr ⟨g, hl⟩)))⟩
  · rw [buildFrame_continuation _ _ _ g] at h
    rcases bind_eq_throw h with h1 | ⟨_, -, h2⟩
    · rcases continuation_throw h1 with ⟨he, hc⟩ | ⟨he, hc⟩
      · exact Or.inl ⟨he, Or.inr ⟨Or.inr g, hc⟩⟩
      · exact Or.inr ⟨he, Or.inr ⟨Or.inr g, hc⟩⟩
    · cases h2
  · rw [buildFrame_unknown _ _ _ g] at h
    exact Or.inr ⟨(Res.throw.inj h).symm, Or.inl g⟩

/-- The two ways in which `receive_frame` throws. -/
theorem receive_throw [Platform] {c : Client} {e : Exc} (h : c.receiveFrame.1 = .throw e) :
    (e = .runtimeError ∧ ∃ lost, lost.length < frameLength c.conn.incoming ∧
      c.conn.incoming = lost ++ c.receiveFrame.2.conn.incoming) ∨
    (frameLength c.conn.incoming ≤ c.conn.incoming.length ∧
      c.receiveFrame.2.conn.incoming = c.conn.incoming.drop (frameLength c.conn.incoming) ∧
      c.receiveFrame.2.requestTable = c.requestTable ∧
      c.receiveFrame.2.responseTable = c.responseTable ∧
      ∃ fh, c.conn.incoming[3]? = some fh.type ∧
        buildFrame fh (payloadAt c.conn.incoming) c.responseTable = .throw e) := by
  obtain ⟨reads', -, ⟨k, h1, h2, h3⟩ | ⟨fh, h1, h2, h3, -, h5⟩⟩ := receiveFrame_cases c
  · left
    rw [h3] at h ⊢
    refine ⟨(Res.throw.inj h).symm, c.conn.incoming.take k, ?_, ?_⟩
    · rw [List.length_take]; unfold frameLength announced; omega
    · exact (List.take_append_drop k _).symm
  · right
    rw [h5, processFrame_eq] at h
    obtain ⟨g1, g2⟩ := processTable_throw h
    rw [h5, processFrame_eq]
    refine ⟨h3, rfl, rfl, g1, fh, ?_, g2⟩
    have hlen9 : 9 ≤ (c.conn.incoming.take 9).length := by rw [List.length_take]; omega
    rw [buildFrameHeader_eq _ hlen9] at h1
    obtain rfl := (Res.ok.inj h1).symm
    rw [List.getElem?_eq_getElem (by omega)]
    simp

/-- C120. `receive_frame` throws `runtime_error` if and only if the transport failed inside the frame:
fewer octets were taken from the stream than the frame has. -/
theorem C120_runtime_error [Platform] (c : Client) :
    c.receiveFrame.1 = .throw .runtimeError ↔
      ∃ lost, lost.length < frameLength c.conn.incoming ∧
        c.conn.incoming = lost ++ c.receiveFrame.2.conn.incoming := by
  constructor
  · intro h
    rcases receive_throw h with ⟨-, h1⟩ | ⟨-, -, -, -, fh, -, h1⟩
    · exact h1
    · rcases buildFrame_throw h1 with ⟨h2, -⟩ | ⟨h2, -⟩ <;> cases h2
  · rintro ⟨lost, h1, h2⟩
    obtain ⟨reads', -, ⟨k, -, -, h3⟩ | ⟨fh, -, -, h3, -, h5⟩⟩ := receiveFrame_cases c
    · rw [h3]
    · exfalso
      rw [h5, processFrame_eq] at h2
      have hl := congrArg List.length h2
      simp only [Client.consumed, List.length_append, List.length_drop] at hl
      unfold frameLength announced at h1
      omega

/-- C120. `receive_frame` throws `invalid_argument` only for a frame that was delivered whole and whose
payload has the wrong length for its type, or is a PUSH_PROMISE or CONTINUATION frame with a string
that is not in Huffman code. The tables are unchanged. -/
theorem C120_invalid_argument [Platform] (c : Client)
    (h : c.receiveFrame.1 = .throw .invalidArgument) :
    frameLength c.conn.incoming ≤ c.conn.incoming.length ∧
      c.receiveFrame.2.conn.incoming = c.conn.incoming.drop (frameLength c.conn.incoming) ∧
      c.receiveFrame.2.requestTable = c.requestTable ∧
      c.receiveFrame.2.responseTable = c.responseTable ∧
      ∃ type, c.conn.incoming[3]? = some type ∧
        (WrongLength type (payloadAt c.conn.incoming) ∨
          ((type = 5 ∨ type = 9) ∧ BadHuffman (payloadAt c.conn.incoming))) := by
  rcases receive_throw h with ⟨h1, -⟩ | ⟨h1, h2, h3, h4, fh, h5, h6⟩
  · cases h1
  · refine ⟨h1, h2, h3, h4, fh.type, h5, ?_⟩
    rcases buildFrame_throw h6 with ⟨-, h7⟩ | ⟨h7, -⟩
    · exact h7
    · cases h7

/-- C120. `receive_frame` throws `out_of_range` only for a frame that was delivered whole and whose type
is none of RFC 7540, or for a PUSH_PROMISE or CONTINUATION frame with an index that is in none of the
tables. The tables are unchanged. -/
theorem C120_out_of_range [Platform] (c : Client) (h : c.receiveFrame.1 = .throw .outOfRange) :
    frameLength c.conn.incoming ≤ c.conn.incoming.length ∧
      c.receiveFrame.2.conn.incoming = c.conn.incoming.drop (frameLength c.conn.incoming) ∧
      c.receiveFrame.2.requestTable = c.requestTable ∧
      c.receiveFrame.2.responseTable = c.responseTable ∧
      ∃ type, c.conn.incoming[3]? = some type ∧
        (9 < type.toNat ∨
          ((type = 5 ∨ type = 9) ∧
            MissingIndex (payloadAt c.conn.incoming) c.responseTable.entries)) := by
  rcases receive_throw h with ⟨h1, -⟩ | ⟨h1, h2, h3, h4, fh, h5, h6⟩
  · cases h1
  · refine ⟨h1, h2, h3, h4, fh.type, h5, ?_⟩
    rcases buildFrame_throw h6 with ⟨h7, -⟩ | ⟨-, h7⟩
    · cases h7
    · exact h7

theorem serialize_ne_throw [Platform] (f : Frame) (e : Exc) : f.serialize ≠ .throw e := by
  cases f with
  | goaway f =>
      show GoawayFrame.serialize f ≠ _
      unfold GoawayFrame.serialize
      exact bind_ne_throw (shlInt_ne_throw _ _) (by simp) e
  | _ => intro h; cases h

/-- C120. `send_frame` throws nothing but `runtime_error`, and this if and only if the transport took
less than the frame. -/
theorem C120_send [Platform] (c : Client) (f : Frame) (e : Exc) :
    (c.sendFrame f).1 = .throw e ↔
      e = .runtimeError ∧ ∃ octets part rest, f.serialize = .ok octets ∧ octets = part ++ rest ∧
        rest ≠ [] ∧ (c.sendFrame f).2.conn.sent = c.conn.sent ++ part := by
  unfold Client.sendFrame
  cases hf : f.serialize with
  | ok octets =>
      simp only
      obtain ⟨sent, writes, h1, -, ⟨h2, h3⟩ | ⟨h2, part, rest, h3, h4, h5⟩⟩ := C55_send c octets
      · rw [h1, h2]
        constructor
        · intro h; cases h
        · rintro ⟨-, o, part, rest, ho, h4, h5, h6⟩
          exfalso
          obtain rfl := (Res.ok.inj ho)
          simp only at h6
          rw [h3] at h6
          have := List.append_cancel_left h6
          rw [h4] at this
          exact h5 (List.append_right_eq_self.1 this)
      · rw [h1, h2]
        constructor
        · intro h
          exact ⟨(Res.throw.inj h).symm, octets, part, rest, rfl, h3, h4, h5⟩
        · rintro ⟨rfl, -⟩; rfl
  | throw e' => exact absurd hf (serialize_ne_throw _ _)
  | ub k =>
      simp only
      constructor
      · intro h; cases h
      · rintro ⟨-, o, -, -, ho, -⟩; cases ho
  | diverge =>
      simp only
      constructor
      · intro h; cases h
      · rintro ⟨-, o, -, -, ho, -⟩; cases ho

theorem wellTyped_or (x : HeaderEntry) : WellTyped x ∨
    ((x.pfx = .sizeUpdate ∧ ∃ h, x.entry = .header h) ∨
      (x.pfx ≠ .sizeUpdate ∧ ∃ n, x.entry = .maxSize n)) := by
  obtain ⟨p, v⟩ := x
  by_cases hp : p = .sizeUpdate
  · cases v with
    | header h => exact Or.inr (Or.inl ⟨hp, h, rfl⟩)
    | maxSize n => exact Or.inl (Or.inl ⟨hp, n, rfl⟩)
  · cases v with
    | header h => exact Or.inl (Or.inr ⟨hp, h, rfl⟩)
    | maxSize n => exact Or.inr (Or.inr ⟨hp, n, rfl⟩)

theorem encodeHeaderBlock_outcome (block : HeaderBlock) (mode : EncodeMode) (t : DynamicTable) :
    ((∀ x ∈ block, WellTyped x) ∧ ∃ b, encodeHeaderBlock block mode t = .ok b) ∨
    ((∃ x ∈ block, ¬ WellTyped x) ∧ encodeHeaderBlock block mode t = .throw .runtimeError) := by
  induction block with
  | nil => exact Or.inl ⟨by simp, [], rfl⟩
  | cons x xs ih =>
      rcases wellTyped_or x with hx | hx
      · obtain ⟨b, hb, -⟩ := C27_well_typed x mode t hx
        rcases ih with ⟨h1, b', h2⟩ | ⟨⟨y, h1, h1'⟩, h2⟩
        · exact Or.inl ⟨by simpa using ⟨hx, h1⟩, _, encodeHeaderBlock_cons hb h2⟩
        · refine Or.inr ⟨⟨y, by simp [h1], h1'⟩, ?_⟩
          rw [encodeHeaderBlock, hb, Res.ok_bind, h2]; rfl
      · refine Or.inr ⟨⟨x, by simp, ?_⟩, ?_⟩
        · rcases hx with ⟨h1, h, h2⟩ | ⟨h1, n, h2⟩ <;> rintro (⟨g1, m, g2⟩ | ⟨g1, m, g2⟩)
          · rw [h2] at g2; cases g2
          · exact g1 h1
          · exact h1 g1
          · rw [h2] at g2; cases g2
        · rw [encodeHeaderBlock, C27_mistyped x mode t hx]; rfl

theorem block_throw (block : HeaderBlock) (mode : EncodeMode) (t : DynamicTable) (e : Exc) :
    encodeHeaderBlock block mode t = .throw e ↔ e = .runtimeError ∧ ∃ x ∈ block, ¬ WellTyped x := by
  rcases encodeHeaderBlock_outcome block mode t with ⟨h1, b, h2⟩ | ⟨h1, h2⟩ <;> rw [h2]
  · constructor
    · intro h; cases h
    · rintro ⟨-, x, hx, hn⟩; exact absurd (h1 x hx) hn
  · constructor
    · intro h; exact ⟨(Res.throw.inj h).symm, h1⟩
    · rintro ⟨rfl, -⟩; rfl

theorem bind_pure_throw {α β : Type} {x : Res α} {f : α → β} {e : Exc} :
    ((do let a ← x; return f a : Res β) = .throw e) ↔ x = .throw e := by
  cases x with
  | ok a => constructor <;> intro h <;> cases h
  | throw e' =>
      constructor
      · intro h; injection h with h; rw [h]
      · intro h; injection h with h; rw [h]; rfl
  | ub k => constructor <;> intro h <;> cases h
  | diverge => constructor <;> intro h <;> cases h

/-- C120. Making a frame with a header block throws nothing but `runtime_error`, and this if and only if
an entry of the block holds a header where its prefix calls for a size, or a size where it calls for a
header. A HEADERS frame with PRIORITY and an exclusive field that is not a bit is the only undefined
case; the block is not looked at then. -/
theorem C120_make [Platform] (flags : UInt8) (sid : UInt32) (block : HeaderBlock) (mode : EncodeMode)
    (t : DynamicTable) (padding : Bytes) (priority : PriorityOption) (payload : PushPromisePayload)
    (e : Exc) :
    (HeadersFrame.new flags sid block mode t padding priority = .throw e ↔
      ¬ (hasPriority flags ∧ 1 < priority.exclusive.toNat) ∧
        e = .runtimeError ∧ ∃ x ∈ block, ¬ WellTyped x) ∧
    (PushPromiseFrame.new flags sid payload mode t = .throw e ↔
      e = .runtimeError ∧ ∃ x ∈ payload.headerBlock, ¬ WellTyped x) ∧
    (ContinuationFrame.new flags sid block mode t = .throw e ↔
      e = .runtimeError ∧ ∃ x ∈ block, ¬ WellTyped x) ∧
    ((HeadersFrame.new flags sid block mode t padding priority).Safe ↔
      ¬ (hasPriority flags ∧ 1 < priority.exclusive.toNat)) ∧
    (PushPromiseFrame.new flags sid payload mode t).Safe ∧
    (ContinuationFrame.new flags sid block mode t).Safe := by
  have safe : ∀ block, (encodeHeaderBlock block mode t).Safe := by
    intro block
    rcases encodeHeaderBlock_outcome block mode t with ⟨-, b, h⟩ | ⟨-, h⟩ <;> rw [h] <;> trivial
  have head : (hasPriority flags ∧ 1 < priority.exclusive.toNat ∧
        HeadersFrame.new flags sid block mode t padding priority = .ub .badShift) ∨
      (¬ (hasPriority flags ∧ 1 < priority.exclusive.toNat) ∧ ∃ f : Bytes → HeadersFrame,
        HeadersFrame.new flags sid block mode t padding priority =
          (do let b ← encodeHeaderBlock block mode t; return f b)) := by
    by_cases hp : hasPriority flags ∧ 1 < priority.exclusive.toNat
    · exact Or.inl ⟨hp.1, hp.2, C54_headers_exclusive_violated flags sid block mode t padding priority
        hp.1 hp.2⟩
    · refine Or.inr ⟨hp, ?_⟩
      have hle : hasPriority flags → priority.exclusive.toNat ≤ 1 := by
        intro h
        by_contra hh
        exact hp ⟨h, by omega⟩
      unfold HeadersFrame.new HeadersFrame.constructEncodedPayload
      by_cases hf : isFlagSet flags flagPriority = true
      · obtain ⟨prio, hb⟩ : ∃ prio, encodePriority priority = .ok prio := by
          have hle := hle (by unfold hasPriority; rw [← isFlagSet_priority]; exact hf)
          unfold encodePriority shlInt
          rw [if_pos ⟨by omega, by
            have : priority.exclusive.toNat * 2 ^ 31 ≤ 1 * 2 ^ 31 := Nat.mul_le_mul_right _ hle
            omega⟩]
          exact ⟨_, rfl⟩
        simp only [hf, if_true, hb, Res.ok_bind]
        cases encodeHeaderBlock block mode t with
        | ok b => exact ⟨fun b => _, rfl⟩
        | _ => exact ⟨fun b => ⟨b, ⟨0, 0, 0, 0, 0⟩, [], .zero, []⟩, rfl⟩
      · simp only [hf]
        cases encodeHeaderBlock block mode t with
        | ok b => exact ⟨fun b => _, rfl⟩
        | _ => exact ⟨fun b => ⟨b, ⟨0, 0, 0, 0, 0⟩, [], .zero, []⟩, rfl⟩
  refine ⟨?_, ?_, ?_, ?_, ?_, ?_⟩
  · rcases head with ⟨h1, h2, h3⟩ | ⟨h1, f, h2⟩
    · rw [h3]
      exact ⟨fun h => (by cases h), fun h => absurd ⟨h1, h2⟩ h.1⟩
    · rw [h2, bind_pure_throw, block_throw block mode t e]
      exact ⟨fun h => ⟨h1, h⟩, fun h => h.2⟩
  · unfold PushPromiseFrame.new
    rw [bind_pure_throw, ← block_throw payload.headerBlock mode t e]
    unfold PushPromiseFrame.constructEncodedPayload
    exact bind_pure_throw
  · unfold ContinuationFrame.new
    rw [bind_pure_throw, block_throw block mode t e]
  · rcases head with ⟨h1, h2, h3⟩ | ⟨h1, f, h2⟩
    · rw [h3]
      exact ⟨fun h => absurd h id, fun h => absurd ⟨h1, h2⟩ h⟩
    · rw [h2]
      refine ⟨fun _ => h1, fun _ => ?_⟩
      have := safe block
      cases h : encodeHeaderBlock block mode t <;> rw [h] at this <;> trivial
  · have := safe payload.headerBlock
    unfold PushPromiseFrame.new PushPromiseFrame.constructEncodedPayload
    cases h : encodeHeaderBlock payload.headerBlock mode t <;> rw [h] at this <;>
      trivial
  · have := safe block
    unfold ContinuationFrame.new
    cases h : encodeHeaderBlock block mode t <;> rw [h] at this <;>
      trivial

/-! One stream for each cause: the frame is cut off, a RST_STREAM frame of three octets, a CONTINUATION
frame with a Huffman string of four octets that has 24 bits of padding, a frame of type 10, and a
CONTINUATION frame with index 62 for an empty table. -/

attribute [local instance] x86 in
example :
    let run := fun stream => (Client.new ⟨stream, [], List.replicate 20 20, []⟩).receiveFrame.1
    run [0, 0, 4, 3, 0, 0, 0, 0, 1, 0, 0] = .throw .runtimeError ∧
    run [0, 0, 3, 3, 0, 0, 0, 0, 1, 0, 0, 0] = .throw .invalidArgument ∧
    run [0, 0, 6, 9, 4, 0, 0, 0, 1, 0x01, 0x84, 0x1f, 0xff, 0xff, 0xff] = .throw .invalidArgument ∧
    run [0, 0, 0, 10, 0, 0, 0, 0, 1] = .throw .outOfRange ∧
    run [0, 0, 1, 9, 4, 0, 0, 0, 1, 0xbe] = .throw .outOfRange := by decide +kernel

attribute [local instance] x86 in
example : ((Client.new ⟨[], [], [], [5, 0]⟩).sendFrame (.data (DataFrame.new 0 1 [7]))).1 =
    .throw .runtimeError := by decide +kernel

example [Platform] : ContinuationFrame.new 4 1 [⟨.indexed, .maxSize 3⟩] .none .default =
    .throw .runtimeError :=
  (C120_make 4 1 [⟨.indexed, .maxSize 3⟩] .none .default [] .zero ⟨0, 0, [], []⟩ _).2.2.1.2
    ⟨rfl, _, List.mem_singleton.2 rfl, by rintro (⟨h, -⟩ | ⟨-, h, hh⟩) <;> cases ‹_›⟩

end Mh2c
