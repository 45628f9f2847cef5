/-
C127: padding does not change what a frame means.
-/
import Verif.Spec.Padding
import Verif.Props.Ignored
import Verif.Props.ClientStream
import Verif.Props.Split
import Verif.Spec.ServerStream

namespace Mh2c

open Rfc

/-! ## C127 -/

theorem padded_content {flags : UInt8} (content padding : Bytes) :
    Content flags ((if hasPadded flags then [u8 padding.length] else []) ++ content ++
      (if hasPadded flags then padding else [])) (content ++ readAsBlock flags padding) := by
  unfold readAsBlock
  by_cases hp : hasPadded flags
  · simp only [if_pos hp]
    have h := Content.padded (flags := flags) (u8 padding.length)
      (content ++ padding.take (padding.length - padding.length % 256))
      (padding.drop (padding.length - padding.length % 256)) hp (by
        rw [List.length_drop]
        unfold u8
        rw [UInt8.toNat_ofNat']
        omega)
    rw [List.append_assoc, List.take_append_drop] at h
    exact h
  · simp only [if_neg hp, List.nil_append, List.append_nil]
    exact .plain _ hp

/-- C127, sending, HEADERS, exactly: for every header block, padding and priority a peer that
receives the frame finds in it the octets of the header block, followed by all but the last
`padding.size() % 256` octets of the padding. Missing: a padding is never read as headers; see
`C127_sent_violated`. -/
theorem C127_sent_exact_partial [Platform] (flags : UInt8) (sid : UInt32) (block : HeaderBlock)
    (mode : EncodeMode) (table : DynamicTable) (padding : Bytes) (priority : PriorityOption)
    (f : HeadersFrame) (octets enc : Bytes)
    (hf : HeadersFrame.new flags sid block mode table padding priority = .ok f)
    (ho : f.serialize = .ok octets) (he : encodeHeaderBlock block mode table = .ok enc)
    (got : Bytes) :
    CarriesBlock flags 1 (octets.drop 9) got ↔ got = enc ++ readAsBlock flags padding := by
  suffices h : CarriesBlock flags 1 (octets.drop 9) (enc ++ readAsBlock flags padding) from
    ⟨fun hg => carries_unique hg h, fun hg => hg ▸ h⟩
  unfold HeadersFrame.new HeadersFrame.constructEncodedPayload at hf
  simp only [padded_ite, priority_ite] at hf
  have key : ∀ prio : Bytes, (do
        let payload ← (do
          let encodedBlock ← encodeHeaderBlock block mode table
          pure ((if hasPadded flags then [u8 padding.length] else []) ++ prio ++ encodedBlock ++
            if hasPadded flags then padding else []) : Res Bytes)
        pure ({ encodedPayload := payload
                header := ⟨castToFhLength payload.length, FrameType.headers.value, flags, 0, sid⟩
                padding := padding
                priority := priority
                headerBlock := block } : HeadersFrame)) = Res.ok f →
      Content flags (octets.drop 9) (prio ++ (enc ++ readAsBlock flags padding)) := by
    intro prio hf
    simp only [Res.bind_eq_ok] at hf
    obtain ⟨payload, ⟨enc', he', hp⟩, hf⟩ := hf
    cases he.symm.trans he'
    cases hf
    unfold HeadersFrame.serialize at ho
    rw [← Res.ok.inj ho, List.drop_left' (FrameHeader.serialize_length _), ← Res.ok.inj hp]
    have hc := padded_content (flags := flags) (prio ++ enc) padding
    rw [← List.append_assoc] at hc
    rw [← List.append_assoc]
    exact hc
  by_cases hq : hasPriority flags
  · simp only [if_pos hq] at hf
    cases hpr : encodePriority priority with
    | ok prio =>
        rw [hpr] at hf
        refine .headersPriority _ prio _ hq (key prio hf) ?_
        unfold encodePriority at hpr
        obtain ⟨e, -, hpr⟩ := Res.bind_eq_ok.1 hpr
        rw [← Res.ok.inj hpr]
        simp [integral2bytes_eq]
    | throw e => rw [hpr] at hf; cases hf
    | ub k => rw [hpr] at hf; cases hf
    | diverge => rw [hpr] at hf; cases hf
  · simp only [if_neg hq] at hf
    exact .headers _ _ hq (key [] hf)

/-- C127, sending, PUSH_PROMISE, exactly; see `C127_sent_exact_partial`. Missing: the same. -/
theorem C127_promise_exact_partial [Platform] (flags : UInt8) (sid : UInt32)
    (payload : PushPromisePayload) (mode : EncodeMode) (table : DynamicTable)
    (f : PushPromiseFrame) (octets enc : Bytes)
    (hf : PushPromiseFrame.new flags sid payload mode table = .ok f)
    (ho : f.serialize = .ok octets)
    (he : encodeHeaderBlock payload.headerBlock mode table = .ok enc) (got : Bytes) :
    CarriesBlock flags 5 (octets.drop 9) got ↔ got = enc ++ readAsBlock flags payload.padding := by
  suffices h : CarriesBlock flags 5 (octets.drop 9) (enc ++ readAsBlock flags payload.padding) from
    ⟨fun hg => carries_unique hg h, fun hg => hg ▸ h⟩
  unfold PushPromiseFrame.new PushPromiseFrame.constructEncodedPayload at hf
  simp only [Res.bind_eq_ok, padded_ite] at hf
  obtain ⟨encoded, ⟨enc', he', hp⟩, hf⟩ := hf
  cases he.symm.trans he'
  cases hf
  unfold PushPromiseFrame.serialize at ho
  rw [← Res.ok.inj ho, List.drop_left' (FrameHeader.serialize_length _), ← Res.ok.inj hp]
  refine .pushPromise _ (netBytes 4 ((lowBits 1 payload.reserved.toNat <<< 31) |||
    lowBits 31 payload.promisedStreamId.toNat)) _ ?_ (by simp [netBytes_eq])
  rw [← List.append_assoc]
  have hc := padded_content (flags := flags) (netBytes 4 ((lowBits 1 payload.reserved.toNat <<< 31) |||
    lowBits 31 payload.promisedStreamId.toNat) ++ enc) payload.padding
  rw [← List.append_assoc] at hc
  exact hc

theorem readAsBlock_nil (flags : UInt8) (padding : Bytes) :
    readAsBlock flags padding = [] ↔ (hasPadded flags → padding.length ≤ 255) := by
  unfold readAsBlock
  by_cases hp : hasPadded flags
  · rw [if_pos hp, List.take_eq_nil_iff]
    constructor
    · intro h _
      rcases h with h | h
      · omega
      · simp [h]
    · intro h
      have := h hp
      omega
  · simp [hp]

/-- C127, sending, the part that holds: the peer finds exactly the octets of the header block if and
only if the frame is not padded or the padding has at most 255 octets. Missing: longer paddings, see
`C127_sent_violated`. -/
theorem C127_sent_partial [Platform] (flags : UInt8) (sid : UInt32) (block : HeaderBlock)
    (mode : EncodeMode) (table : DynamicTable) (padding : Bytes) (priority : PriorityOption)
    (f : HeadersFrame) (octets enc : Bytes)
    (hf : HeadersFrame.new flags sid block mode table padding priority = .ok f)
    (ho : f.serialize = .ok octets) (he : encodeHeaderBlock block mode table = .ok enc) :
    CarriesBlock flags 1 (octets.drop 9) enc ↔ (hasPadded flags → padding.length ≤ 255) := by
  rw [C127_sent_exact_partial flags sid block mode table padding priority f octets enc hf ho he,
    ← readAsBlock_nil]
  exact ⟨fun h => (List.append_right_eq_self.1 h.symm), fun h => by rw [h, List.append_nil]⟩

/-- C127 is false of the code: 256 octets 0x82 given as padding of a HEADERS frame reach the peer as
256 further headers `:method: GET`, whatever the header block, its octets and the tables are. -/
theorem C127_sent_violated [Platform] (flags : UInt8) (hp : hasPadded flags) (sid : UInt32)
    (block : HeaderBlock) (mode : EncodeMode) (table : DynamicTable) (priority : PriorityOption)
    (f : HeadersFrame) (octets enc : Bytes)
    (hf : HeadersFrame.new flags sid block mode table (List.replicate 256 0x82) priority = .ok f)
    (ho : f.serialize = .ok octets) (he : encodeHeaderBlock block mode table = .ok enc)
    (t t' : Table) (items : List Item) (hd : BlockDecodes t enc items t') :
    ∃ got, CarriesBlock flags 1 (octets.drop 9) got ∧
      BlockDecodes t got
        (items ++ List.replicate 256 (.indexed (bstr ":method", bstr "GET"))) t' := by
  refine ⟨_, (C127_sent_exact_partial flags sid block mode table _ priority f octets enc hf ho he
    _).2 rfl, BlockDecodes.append hd ?_⟩
  unfold readAsBlock
  rw [if_pos hp]
  simp only [List.length_replicate, Nat.mod_self, Nat.sub_zero, List.take_replicate, Nat.min_self]
  generalize 256 = n
  induction n with
  | zero => exact .nil _
  | succ n ih =>
      refine .cons _ _ _ _ _ _ (.indexed 0x82 _ _ 2 _ (by decide) ?_ rfl) ih
      rfl

/-- Non-vacuity of the sending theorems of C127: `:method: GET` with priority fields, PADDED and 258
octets of padding is made and serialized, and so is a padded PUSH_PROMISE. A pad length of 2 is all
that is announced. -/
example [Platform] :
    encodeHeaderBlock [⟨.indexed, .header (bstr ":method", bstr "GET")⟩] .none sampleTable =
      .ok [0x82] ∧
    ((HeadersFrame.new 0x28 1 [⟨.indexed, .header (bstr ":method", bstr "GET")⟩] .none sampleTable
      (List.replicate 258 0x84) ⟨1, 3, 7⟩).bind HeadersFrame.serialize).bind (fun o =>
        .ok (o.drop 9)) = .ok (2 :: [128, 0, 0, 3, 7, 0x82] ++ List.replicate 258 0x84) ∧
    readAsBlock 0x28 (List.replicate 258 0x84) = List.replicate 256 0x84 ∧
    ((PushPromiseFrame.new 8 1 ⟨0, 2, [⟨.indexed, .header (bstr ":method", bstr "GET")⟩],
      List.replicate 258 0x84⟩ .none sampleTable).bind PushPromiseFrame.serialize).bind (fun o =>
        .ok (o.drop 9)) = .ok (2 :: [0, 0, 0, 2, 0x82] ++ List.replicate 258 0x84) := by
  rename_i P
  rcases P with ⟨_ | _, _ | _⟩ <;> decide +kernel

theorem buildFrame_padding [Platform] {a b : FrameHeader} {raw raw' content : Bytes}
    (t : DynamicTable) (hk : a.type = 1 ∨ a.type = 5) (ht : a.type = b.type)
    (hs : a.streamId = b.streamId)
    (hq : a.type = 1 → (hasPriority a.flags ↔ hasPriority b.flags))
    (ha : Content a.flags raw content) (hb : Content b.flags raw' content) :
    Alike SameButPadding (buildFrame a raw t) (buildFrame b raw' t) := by
  have hr : ∀ x y, withoutHeader (withoutPadding x) = withoutHeader (withoutPadding y) →
      (withoutPadding x).header.type = a.type → (withoutPadding y).header.type = b.type →
      (withoutPadding x).header.streamId = a.streamId →
      (withoutPadding y).header.streamId = b.streamId →
      SameButPadding x y := fun x y h h1 h2 h3 h4 => ⟨h, by rw [h1, h2, ht], by rw [h3, h4, hs]⟩
  obtain ⟨pad, ea⟩ := extractPadding_content ha
  obtain ⟨pad', eb⟩ := extractPadding_content hb
  rcases hk with h | h
  · rw [buildFrame_headers _ _ _ h, buildFrame_headers _ _ _ (ht ▸ h)]
    have h1 : Alike (fun f g => SameButPadding (.headers f) (.headers g))
        (HeadersFrame.ofRaw a raw t) (HeadersFrame.ofRaw b raw' t) := by
      unfold HeadersFrame.ofRaw
      rw [ea, eb, Res.ok_bind, Res.ok_bind]
      simp only
      rw [extractPriority_agree (hq h)]
      refine Alike.bind _ _ _ fun q => Alike.bind _ _ _ fun l =>
        .ok _ _ (hr _ _ rfl rfl rfl rfl rfl)
    unfold buildHeadersFrame
    generalize HeadersFrame.ofRaw a raw t = u, HeadersFrame.ofRaw b raw' t = v at h1
    cases h1 with
    | ok f g h => exact .ok _ _ h
    | throw e => exact .ok _ _ (hr _ _ rfl rfl rfl rfl rfl)
    | ub k => exact .ub k
    | diverge => exact .diverge
  · rw [buildFrame_pushPromise _ _ _ h, buildFrame_pushPromise _ _ _ (ht ▸ h)]
    have h1 : Alike (fun f g => SameButPadding (.pushPromise f) (.pushPromise g))
        (PushPromiseFrame.ofRaw a raw t) (PushPromiseFrame.ofRaw b raw' t) := by
      unfold PushPromiseFrame.ofRaw
      rw [ea, eb, Res.ok_bind, Res.ok_bind]
      exact Alike.bind _ _ _ fun q => Alike.bind _ _ _ fun _ =>
        Alike.bind _ _ _ fun _ => Alike.bind _ _ _ fun _ => .ok _ _ (hr _ _ rfl rfl rfl rfl rfl)
    exact h1.bind2 fun f g h => .ok _ _ h

theorem updateTable_padding (f g : Frame) (t : DynamicTable) (h : SameButPadding f g) :
    updateDynamicTableFrame f t = updateDynamicTableFrame g t := by
  have h1 : ∀ f, updateDynamicTableFrame (withoutPadding f) t = updateDynamicTableFrame f t := by
    intro f
    cases f <;> rfl
  rw [← h1 f, ← h1 g]
  exact updateTable_alike _ _ _ h

/-- C127, receiving. Two HEADERS or two PUSH_PROMISE frames on one stream have the same content
between pad length and padding, and one agrees with the other in the PRIORITY flag. Whether they are
padded, with how many octets and which ones makes no difference but in the padding itself: the calls
return frames that agree in class, stream, priority fields, promised stream and header list, or fail
in the same way, and leave the same response table and the same octets to come. -/
theorem C127_received [Platform] (c d : Client) (type flags flags' : UInt8) (sid : UInt32)
    (raw raw' content rest : Bytes) (hk : type = 1 ∨ type = 5)
    (hl : raw.length < 2 ^ 24) (hl' : raw'.length < 2 ^ 24) (hs : sid.toNat < 2 ^ 31)
    (hr : Content flags raw content) (hr' : Content flags' raw' content)
    (hq : type = 1 → (hasPriority flags ↔ hasPriority flags'))
    (hc : c.conn.incoming = frameOctets type flags sid.toNat raw ++ rest)
    (hd : d.conn.incoming = frameOctets type flags' sid.toNat raw' ++ rest)
    (ht : c.responseTable = d.responseTable)
    (hw : Willing c.conn.reads (frameOctets type flags sid.toNat raw).length)
    (hw' : Willing d.conn.reads (frameOctets type flags' sid.toNat raw').length) :
    Alike SameButPadding c.receiveFrame.1 d.receiveFrame.1 ∧
      c.receiveFrame.2.responseTable = d.receiveFrame.2.responseTable ∧
      c.receiveFrame.2.conn.incoming = rest ∧ d.receiveFrame.2.conn.incoming = rest := by
  obtain ⟨j, -, e1⟩ := receive_one hl hs hc hw
  obtain ⟨j', -, e2⟩ := receive_one hl' hs hd hw'
  have hal := buildFrame_padding (a := ⟨castToFhLength raw.length, type, flags, 0, sid⟩)
    (b := ⟨castToFhLength raw'.length, type, flags', 0, sid⟩) d.responseTable hk rfl rfl hq hr hr'
  rw [e1, e2, ht]
  simp only
  unfold processTable
  generalize buildFrame ⟨castToFhLength raw.length, type, flags, 0, sid⟩ raw d.responseTable = u,
    buildFrame ⟨castToFhLength raw'.length, type, flags', 0, sid⟩ raw' d.responseTable = v at hal
  cases hal with
  | throw e => exact ⟨.throw e, rfl, trivial, trivial⟩
  | ub k => exact ⟨.ub k, rfl, trivial, trivial⟩
  | diverge => exact ⟨.diverge, rfl, trivial, trivial⟩
  | ok f g h =>
    simp only
    rw [updateTable_padding f g _ h]
    rcases updateDynamicTableFrame g d.responseTable with ⟨_ | e | k | _, t⟩
    · exact ⟨.ok f g h, rfl, trivial, trivial⟩
    · exact ⟨.throw e, rfl, trivial, trivial⟩
    · exact ⟨.ub k, rfl, trivial, trivial⟩
    · exact ⟨.diverge, rfl, trivial, trivial⟩

/-- Non-vacuity of C127, receiving: a HEADERS frame with two octets of padding and the same frame
with no padding at all, both with priority fields. Both calls return; the frames differ, but not in
priority and header list. -/
example [Platform] :
    let u : Client := .new ⟨frameOctets 1 0x28 5 [2, 128, 0, 0, 3, 7, 0x88, 9, 9] ++ [1], [],
      List.replicate 20 1, []⟩
    let v : Client := .new ⟨frameOctets 1 0x20 5 [128, 0, 0, 3, 7, 0x88] ++ [1], [],
      List.replicate 20 30, []⟩
    Willing u.conn.reads (frameOctets 1 0x28 5 [2, 128, 0, 0, 3, 7, 0x88, 9, 9]).length ∧
      Willing v.conn.reads (frameOctets 1 0x20 5 [128, 0, 0, 3, 7, 0x88]).length ∧
      (u.receiveFrame.1.bind fun f => v.receiveFrame.1.bind fun g =>
        .ok (decide (f = g), decide (withoutHeader (withoutPadding f) =
          withoutHeader (withoutPadding g)), f.headerList)) =
        .ok (false, true, [(bstr ":status", bstr "200")]) := by
  rename_i P
  rcases P with ⟨_ | _, _ | _⟩ <;> decide +kernel

example : Content 0x28 [2, 128, 0, 0, 3, 7, 0x88, 9, 9] [128, 0, 0, 3, 7, 0x88] ∧
    Content 0x20 [128, 0, 0, 3, 7, 0x88] [128, 0, 0, 3, 7, 0x88] :=
  ⟨.padded 2 [128, 0, 0, 3, 7, 0x88] [9, 9] (by decide) rfl, .plain _ (by decide)⟩

end Mh2c
