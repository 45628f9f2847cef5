/-
C78: `operator==` of the frame classes.
-/
import Verif.Proofs.Equality
import Verif.Props.Dump

namespace Mh2c

open Rfc

/-- C78. `==` compares everything but the encoded form of a header block: two frames are equal
exactly if they have the same class and the same members otherwise. -/
theorem C78_exact (f g : Frame) (hr : ∀ a, f ≠ .raw a) :
    ComparesEqual f g ↔ withoutEncoding f = withoutEncoding g := by
  constructor
  · intro h
    cases h with
    | data h =>
        simp only [DataFrame.same, Bool.and_eq_true, FrameHeader.same_iff, beq_iff_eq] at h
        rename_i a b; cases a; cases b; simp only at h; rw [h.1, h.2]
    | headers h =>
        rw [HeadersFrame.same_iff] at h
        simp only [withoutEncoding, h.1, h.2.1, h.2.2.1, h.2.2.2]
    | priority h =>
        simp only [PriorityFrame.same, Bool.and_eq_true, FrameHeader.same_iff,
          PriorityOption.same_iff] at h
        rename_i a b; cases a; cases b; simp only at h; rw [h.1, h.2]
    | rstStream h =>
        simp only [RstStreamFrame.same, Bool.and_eq_true, FrameHeader.same_iff, beq_iff_eq] at h
        rename_i a b; cases a; cases b; simp only at h; rw [h.1, h.2]
    | settings h =>
        simp only [SettingsFrame.same, Bool.and_eq_true, FrameHeader.same_iff, beq_iff_eq] at h
        rename_i a b; cases a; cases b; simp only at h; rw [h.1, h.2]
    | pushPromise h =>
        rw [PushPromiseFrame.same_iff] at h
        simp only [withoutEncoding, h.1, h.2]
    | ping h =>
        simp only [PingFrame.same, Bool.and_eq_true, FrameHeader.same_iff, beq_iff_eq] at h
        rename_i a b; cases a; cases b; simp only at h; rw [h.1, h.2]
    | goaway h =>
        simp only [GoawayFrame.same, Bool.and_eq_true, FrameHeader.same_iff,
          GoawayPayload.same_iff] at h
        rename_i a b; cases a; cases b; simp only at h; rw [h.1, h.2]
    | windowUpdate h =>
        simp only [WindowUpdateFrame.same, Bool.and_eq_true, FrameHeader.same_iff, beq_iff_eq] at h
        rename_i a b; cases a; cases b; simp only at h; rw [h.1.1, h.1.2, h.2]
    | continuation h =>
        rw [ContinuationFrame.same_iff] at h
        simp only [withoutEncoding, h.1, h.2]
  · intro h
    cases f with
    | raw a => exact absurd rfl (hr a)
    | data a =>
        cases g <;> cases h
        exact .data (by simp [DataFrame.same, FrameHeader.same_iff])
    | headers a =>
        cases g <;> simp only [withoutEncoding, Frame.headers.injEq, HeadersFrame.mk.injEq, reduceCtorEq] at h
        exact .headers (HeadersFrame.same_iff.2 ⟨h.2.1, h.2.2.2.1, h.2.2.2.2, h.2.2.1⟩)
    | priority a =>
        cases g <;> cases h
        exact .priority (by simp [PriorityFrame.same, FrameHeader.same_iff, PriorityOption.same_iff])
    | rstStream a =>
        cases g <;> cases h
        exact .rstStream (by simp [RstStreamFrame.same, FrameHeader.same_iff])
    | settings a =>
        cases g <;> cases h
        exact .settings (by simp [SettingsFrame.same, FrameHeader.same_iff])
    | pushPromise a =>
        cases g <;> simp only [withoutEncoding, Frame.pushPromise.injEq, PushPromiseFrame.mk.injEq, reduceCtorEq] at h
        exact .pushPromise (PushPromiseFrame.same_iff.2 ⟨h.2.1, h.2.2⟩)
    | ping a =>
        cases g <;> cases h
        exact .ping (by simp [PingFrame.same, FrameHeader.same_iff])
    | goaway a =>
        cases g <;> cases h
        exact .goaway (by simp [GoawayFrame.same, FrameHeader.same_iff, GoawayPayload.same_iff])
    | windowUpdate a =>
        cases g <;> cases h
        exact .windowUpdate (by simp [WindowUpdateFrame.same, FrameHeader.same_iff])
    | continuation a =>
        cases g <;> simp only [withoutEncoding, Frame.continuation.injEq, ContinuationFrame.mk.injEq, reduceCtorEq] at h
        exact .continuation (ContinuationFrame.same_iff.2 ⟨h.2.1, h.2.2⟩)

/-- C78. `==` is an equivalence relation. -/
theorem C78_equivalence (f g k : Frame) (hr : ∀ a, f ≠ .raw a) :
    ComparesEqual f f ∧ (ComparesEqual f g → ComparesEqual g f) ∧
      (ComparesEqual f g → ComparesEqual g k → ComparesEqual f k) := by
  refine ⟨(C78_exact f f hr).2 rfl, fun h => ?_, fun h1 h2 => ?_⟩
  · have hg : ∀ a, g ≠ .raw a := by rintro a rfl; cases h
    exact (C78_exact g f hg).2 ((C78_exact f g hr).1 h).symm
  · have hg : ∀ a, g ≠ .raw a := by rintro a rfl; cases h1
    exact (C78_exact f k hr).2 (((C78_exact f g hr).1 h1).trans ((C78_exact g k hg).1 h2))

/-- C78. Equal frames print the same text, whatever the stream. -/
theorem C78_text [Platform] (f g : Frame) (h : ComparesEqual f g) (s : Stream) :
    f.dump s = g.dump s := by
  have key : ∀ f : Frame, f.dump s = (withoutEncoding f).dump s := by
    intro f; cases f <;> rfl
  have hr : ∀ a, f ≠ .raw a := by rintro a rfl; cases h
  rw [key f, key g, (C78_exact f g hr).1 h]

/-- C78, the part that holds on the wire: equal frames without header block are sent as the same
octets. Missing: frames with a header block, see `C78_wire_violated`. -/
theorem C78_wire_partial [Platform] (f g : Frame) (h : ComparesEqual f g) (hb : ¬ HasBlock f) :
    f.serialize = g.serialize := by
  have hr : ∀ a, f ≠ .raw a := by rintro a rfl; cases h
  have := (C78_exact f g hr).1 h
  cases h <;> first | exact absurd trivial hb | (simp only [withoutEncoding] at this; rw [this])

/-- C78, HEADERS made by the sending constructor with the same mode against the same table: equal
frames are sent as the same octets. Missing: other modes and tables, see `C78_wire_violated`. -/
theorem C78_sent_headers_partial [Platform] (fl1 fl2 : UInt8) (id1 id2 : UInt32) (b1 b2 : HeaderBlock)
    (mode : EncodeMode) (table : DynamicTable) (pd1 pd2 : Bytes) (pr1 pr2 : PriorityOption)
    (f g : HeadersFrame) (hf : HeadersFrame.new fl1 id1 b1 mode table pd1 pr1 = .ok f)
    (hg : HeadersFrame.new fl2 id2 b2 mode table pd2 pr2 = .ok g)
    (h : ComparesEqual (.headers f) (.headers g)) : f.serialize = g.serialize := by
  cases h with
  | headers h =>
      rw [HeadersFrame.same_iff] at h
      unfold HeadersFrame.new at hf hg
      obtain ⟨p1, e1, e2⟩ := Res.bind_eq_ok.1 hf
      obtain ⟨p2, e3, e4⟩ := Res.bind_eq_ok.1 hg
      cases Res.ok.inj e2
      cases Res.ok.inj e4
      simp only at h
      obtain ⟨h1, rfl, rfl, rfl⟩ := h
      have hfl : fl1 = fl2 := congrArg FrameHeader.flags h1
      subst hfl
      rw [e1] at e3
      cases e3
      unfold HeadersFrame.serialize
      simp only
      rw [h1]

/-- C78, PUSH_PROMISE, likewise. Missing: as for HEADERS. -/
theorem C78_sent_push_promise_partial [Platform] (fl1 fl2 : UInt8) (id1 id2 : UInt32)
    (p1 p2 : PushPromisePayload) (mode : EncodeMode) (table : DynamicTable) (f g : PushPromiseFrame)
    (hf : PushPromiseFrame.new fl1 id1 p1 mode table = .ok f)
    (hg : PushPromiseFrame.new fl2 id2 p2 mode table = .ok g)
    (h : ComparesEqual (.pushPromise f) (.pushPromise g)) : f.serialize = g.serialize := by
  cases h with
  | pushPromise h =>
      rw [PushPromiseFrame.same_iff] at h
      unfold PushPromiseFrame.new at hf hg
      obtain ⟨q1, e1, e2⟩ := Res.bind_eq_ok.1 hf
      obtain ⟨q2, e3, e4⟩ := Res.bind_eq_ok.1 hg
      cases Res.ok.inj e2
      cases Res.ok.inj e4
      simp only at h
      obtain ⟨h1, rfl⟩ := h
      have hfl : fl1 = fl2 := congrArg FrameHeader.flags h1
      subst hfl
      rw [e1] at e3
      cases e3
      unfold PushPromiseFrame.serialize
      simp only
      rw [h1]

/-- C78, CONTINUATION, likewise. Missing: as for HEADERS. -/
theorem C78_sent_continuation_partial [Platform] (fl1 fl2 : UInt8) (id1 id2 : UInt32)
    (b1 b2 : HeaderBlock) (mode : EncodeMode) (table : DynamicTable) (f g : ContinuationFrame)
    (hf : ContinuationFrame.new fl1 id1 b1 mode table = .ok f)
    (hg : ContinuationFrame.new fl2 id2 b2 mode table = .ok g)
    (h : ComparesEqual (.continuation f) (.continuation g)) : f.serialize = g.serialize := by
  cases h with
  | continuation h =>
      rw [ContinuationFrame.same_iff] at h
      unfold ContinuationFrame.new at hf hg
      obtain ⟨q1, e1, e2⟩ := Res.bind_eq_ok.1 hf
      obtain ⟨q2, e3, e4⟩ := Res.bind_eq_ok.1 hg
      cases Res.ok.inj e2
      cases Res.ok.inj e4
      simp only at h
      obtain ⟨h1, rfl⟩ := h
      rw [e1] at e3
      cases e3
      unfold ContinuationFrame.serialize
      simp only
      rw [h1]

/-- C78 is false of the code on the wire: two HEADERS frames with the same arguments but for the
encoding mode compare equal and are sent as different octets (`X` takes eight bits either way). -/
theorem C78_wire_violated [P : Platform] : ∃ f g : HeadersFrame,
    HeadersFrame.new 4 1 [⟨.neverIndexed, .header (bstr "X", bstr "X")⟩] .none .default = .ok f ∧
    HeadersFrame.new 4 1 [⟨.neverIndexed, .header (bstr "X", bstr "X")⟩] .huffman .default = .ok g ∧
    ComparesEqual (.headers f) (.headers g) ∧ f.serialize ≠ g.serialize := by
  refine ⟨⟨[0x10, 1, 88, 1, 88], ⟨5, 1, 4, 0, 1⟩, [], .zero,
      [⟨.neverIndexed, .header (bstr "X", bstr "X")⟩]⟩,
    ⟨[0x10, 0x81, 0xfc, 0x81, 0xfc], ⟨5, 1, 4, 0, 1⟩, [], .zero,
      [⟨.neverIndexed, .header (bstr "X", bstr "X")⟩]⟩, by decide +kernel, by decide +kernel,
    .headers (HeadersFrame.same_iff.2 ⟨rfl, rfl, rfl, rfl⟩), ?_⟩
  rcases P with ⟨_ | _, _ | _⟩ <;> decide +kernel

example : ComparesEqual (.ping ⟨⟨8, 6, 1, 0, 0⟩, [1, 2, 3, 4, 5, 6, 7, 8]⟩)
      (.ping ⟨⟨8, 6, 1, 0, 0⟩, [1, 2, 3, 4, 5, 6, 7, 8]⟩) ∧
    ¬ ComparesEqual (.ping ⟨⟨8, 6, 1, 0, 0⟩, [1, 2, 3, 4, 5, 6, 7, 8]⟩)
      (.ping ⟨⟨8, 6, 1, 0, 0⟩, [1, 2, 3, 4, 5, 6, 7, 9]⟩) ∧
    ¬ HasBlock (.ping ⟨⟨8, 6, 1, 0, 0⟩, [1, 2, 3, 4, 5, 6, 7, 8]⟩) :=
  ⟨.ping (by decide), (by intro h; cases h with | ping h => exact absurd h (by decide)), fun h => h⟩

/-- Non-vacuity of `C78_sent_headers_partial`, `C78_sent_push_promise_partial` and
`C78_sent_continuation_partial`: frames of these classes are made. The second HEADERS frame has another
argument than the first (a priority without the PRIORITY flag) and does not compare equal to it. -/
example [P : Platform] : ∃ f f' g h,
    HeadersFrame.new 4 1 [⟨.neverIndexed, .header (bstr "X", bstr "X")⟩] .none .default = .ok f ∧
    HeadersFrame.new 4 1 [⟨.neverIndexed, .header (bstr "X", bstr "X")⟩] .none .default [] ⟨0, 3, 9⟩ =
      .ok f' ∧
    PushPromiseFrame.new 4 1 ⟨0, 2, [⟨.neverIndexed, .header (bstr "X", bstr "X")⟩], []⟩ .none .default =
      .ok g ∧
    ContinuationFrame.new 4 1 [⟨.neverIndexed, .header (bstr "X", bstr "X")⟩] .huffman .default = .ok h ∧
    ComparesEqual (.headers f) (.headers f) ∧ ¬ ComparesEqual (.headers f) (.headers f') ∧
    ComparesEqual (.pushPromise g) (.pushPromise g) ∧
    ComparesEqual (.continuation h) (.continuation h) := by
  refine ⟨⟨[0x10, 1, 88, 1, 88], ⟨5, 1, 4, 0, 1⟩, [], .zero,
      [⟨.neverIndexed, .header (bstr "X", bstr "X")⟩]⟩,
    ⟨[0x10, 1, 88, 1, 88], ⟨5, 1, 4, 0, 1⟩, [], ⟨0, 3, 9⟩,
      [⟨.neverIndexed, .header (bstr "X", bstr "X")⟩]⟩,
    ⟨[0, 0, 0, 2, 0x10, 1, 88, 1, 88], ⟨9, 5, 4, 0, 1⟩,
      ⟨0, 2, [⟨.neverIndexed, .header (bstr "X", bstr "X")⟩], []⟩⟩,
    ⟨[0x10, 0x81, 0xfc, 0x81, 0xfc], ⟨5, 9, 4, 0, 1⟩, [⟨.neverIndexed, .header (bstr "X", bstr "X")⟩]⟩,
    by decide +kernel, by decide +kernel, ?_, by decide +kernel,
    .headers (HeadersFrame.same_iff.2 ⟨rfl, rfl, rfl, rfl⟩),
    (by intro h; cases h with | headers h => exact absurd h (by decide +kernel)),
    .pushPromise (PushPromiseFrame.same_iff.2 ⟨rfl, rfl⟩),
    .continuation (ContinuationFrame.same_iff.2 ⟨rfl, rfl⟩)⟩
  rcases P with ⟨_ | _, _ | _⟩ <;> decide +kernel

end Mh2c
