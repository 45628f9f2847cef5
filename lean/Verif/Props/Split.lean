/-
C71: a header block split over HEADERS and CONTINUATION.
-/
import Verif.Proofs.Split
import Verif.Props.Conversation

namespace Mh2c

open Rfc

/-- A transport that makes progress hands over the first frame. -/
theorem receive_one [Platform] {d : Client} {type flags : UInt8} {sid : UInt32}
    {payload rest : Bytes} (hl : payload.length < 2 ^ 24) (hs : sid.toNat < 2 ^ 31)
    (hi : d.conn.incoming = frameOctets type flags sid.toNat payload ++ rest)
    (hw : Willing d.conn.reads (frameOctets type flags sid.toNat payload).length) :
    ∃ j, j ≤ (frameOctets type flags sid.toNat payload).length ∧ d.receiveFrame =
      ((processTable ⟨castToFhLength payload.length, type, flags, 0, sid⟩ payload d.responseTable).1,
       ⟨⟨rest, d.conn.sent, d.conn.reads.drop j, d.conn.writes⟩, d.requestTable,
        (processTable ⟨castToFhLength payload.length, type, flags, 0, sid⟩ payload
          d.responseTable).2⟩) := by
  obtain ⟨f1, f2, f3, f4, f5⟩ := front_frame type flags sid payload rest hl hs
  have hprog := receiveFrame_progress d
  rw [hi, f2, f3, f4] at hprog
  rw [f1] at hw
  obtain ⟨fh, j, hj, e1, -, e2⟩ := hprog (by rw [List.length_append, f1]; omega)
    (by have := hw.1; omega) (fun r hr => hw.2 r hr)
  obtain rfl := (Res.ok.inj e1).symm
  rw [processFrame_eq] at e2
  simp only [Client.consumed] at e2
  rw [hi, f5] at e2
  exact ⟨j, by omega, e2⟩

theorem ofRaw_part [Platform] {fh : FrameHeader} {priority : PriorityOption} {padding part : Bytes}
    {t : DynamicTable} (hf : FitsFlags fh.flags priority padding) :
    HeadersFrame.ofRaw fh (headersPayload fh.flags priority padding part) t =
      (decodeHeaderBlock part t >>= fun es =>
        .ok ⟨headersPayload fh.flags priority padding part, fh, padding, priority, es⟩) := by
  unfold HeadersFrame.ofRaw headersPayload
  rw [extractPadding_withPadding _ _ _ hf.short hf.unpadded, Res.ok_bind]
  simp only
  rw [extractPriority_withPriority _ _ _ hf.exclusive hf.dependency hf.noPriority, Res.ok_bind]
  rfl

theorem updateFrame_headers {h : HeadersFrame} {t : DynamicTable} (ht : h.header.type = 1) :
    updateDynamicTableFrame (.headers h) t = updateDynamicTable h.headerBlock t := by
  unfold updateDynamicTableFrame Frame.header
  simp only
  rw [ht]
  rfl

theorem updateFrame_continuation {h : ContinuationFrame} {t : DynamicTable}
    (ht : h.header.type = 9) :
    updateDynamicTableFrame (.continuation h) t = updateDynamicTable h.headerBlock t := by
  unfold updateDynamicTableFrame Frame.header
  simp only
  rw [ht]
  rfl

/-- A HEADERS frame that came back as one: what its header block is. -/
theorem received_headers [Platform] {u u' : Client} {flags : UInt8} {sid : UInt32}
    {priority : PriorityOption} {padding block rest : Bytes} {f : HeadersFrame}
    (hf : FitsFlags flags priority padding)
    (hl : (headersPayload flags priority padding block).length < 2 ^ 24) (hs : sid.toNat < 2 ^ 31)
    (hi : u.conn.incoming =
      frameOctets 1 flags sid.toNat (headersPayload flags priority padding block) ++ rest)
    (hr : u.receiveFrame = (.ok (.headers f), u')) :
    decodeHeaderBlock block u.responseTable = .ok f.headerBlock ∧
    updateDynamicTable f.headerBlock u.responseTable = (.ok (), u'.responseTable) := by
  obtain ⟨f1, f2, f3, f4, f5⟩ := front_frame 1 flags sid _ rest hl hs
  obtain ⟨reads', -, ⟨k, -, -, e⟩ | ⟨fh, e1, -, -, -, e⟩⟩ := receiveFrame_cases u
  · rw [hr] at e; cases e
  · rw [hi, f3] at e1
    obtain rfl := (Res.ok.inj e1).symm
    rw [hi, f2, f4, processFrame_eq, hr] at e
    simp only [Client.consumed] at e
    injection e with e1 e2
    have e3 : (processTable ⟨castToFhLength (headersPayload flags priority padding block).length, 1,
        flags, 0, sid⟩ (headersPayload flags priority padding block) u.responseTable).2 =
        u'.responseTable := by rw [e2]
    unfold processTable at e1 e3
    rw [buildFrame_headers _ _ _ rfl] at e1 e3
    unfold buildHeadersFrame at e1 e3
    rw [ofRaw_part (fh := ⟨_, 1, flags, 0, sid⟩) hf] at e1 e3
    cases hd : decodeHeaderBlock block u.responseTable with
    | ok es =>
        rw [hd, Res.ok_bind] at e1 e3
        simp only at e1 e3
        rw [updateFrame_headers rfl] at e1 e3
        rcases hu : updateDynamicTable es u.responseTable with ⟨r, t'⟩
        rw [hu] at e1 e3
        cases r with
        | ok x =>
            cases x
            have := Frame.headers.inj (Res.ok.inj e1)
            subst this
            exact ⟨rfl, by rw [hu]; exact Prod.ext rfl e3⟩
        | throw x => cases e1
        | ub x => cases e1
        | diverge => cases e1
    | throw x => rw [hd] at e1; cases e1
    | ub x => rw [hd] at e1; cases e1
    | diverge => exact absurd hd (decodeHeaderBlock_ne_diverge _ _)

theorem updateDynamicTable_append {a b : HeaderBlock} {t t' : DynamicTable}
    (h : updateDynamicTable (a ++ b) t = (.ok (), t')) :
    ∃ t1, updateDynamicTable a t = (.ok (), t1) ∧ updateDynamicTable b t1 = (.ok (), t') := by
  induction a generalizing t with
  | nil => exact ⟨t, rfl, h⟩
  | cons e es ih =>
      rw [List.cons_append, updateDynamicTable] at h
      rw [updateDynamicTable]
      cases he : updateDynamicTableEntry e t with
      | ok t2 => rw [he] at h; simp only; exact ih h
      | throw x => rw [he] at h; cases h
      | ub x => rw [he] at h; cases h
      | diverge => rw [he] at h; cases h

/-- Entries that do not touch the table. -/
theorem updateDynamicTable_still {a : HeaderBlock} {t : DynamicTable}
    (h : ∀ e ∈ a, e.pfx ≠ .incrementalIndexing ∧ e.pfx ≠ .sizeUpdate) :
    updateDynamicTable a t = (.ok (), t) := by
  induction a with
  | nil => rfl
  | cons e es ih =>
      have := h e (by simp)
      unfold updateDynamicTable updateDynamicTableEntry
      rw [if_neg this.1, if_neg this.2]
      exact ih (fun x hx => h x (by simp [hx]))

/-- C71, the part that holds. A header block `a ++ b` arrives in one HEADERS frame (client `u`) and
is delivered. The same block arrives as HEADERS with `a` and CONTINUATION with `b` (client `d`, same
table). If `a` can be decoded by itself - the split is between two representations - and `a` holds
neither an insertion into the dynamic table nor a size update, or `b` refers to no entry of the
dynamic table (it can be decoded with an empty one), then the two frames are delivered, their header
lists put together are the header list of the unsplit frame, and the dynamic table is the same
afterwards. Missing: every other split, see `C71_inside_violated` and `C71_insertion_violated`. -/
theorem C71_between_partial [Platform] (u u' d : Client) (flags flags1 flags2 : UInt8)
    (sid : UInt32) (priority : PriorityOption) (padding a b restU rest : Bytes)
    (hs : sid.toNat < 2 ^ 31) (hf : FitsFlags flags priority padding)
    (hf1 : FitsFlags flags1 priority padding)
    (hl : (headersPayload flags priority padding (a ++ b)).length < 2 ^ 24)
    (hl1 : (headersPayload flags1 priority padding a).length < 2 ^ 24) (hl2 : b.length < 2 ^ 24)
    (hu : u.conn.incoming =
      frameOctets 1 flags sid.toNat (headersPayload flags priority padding (a ++ b)) ++ restU)
    (hd : d.conn.incoming =
      frameOctets 1 flags1 sid.toNat (headersPayload flags1 priority padding a) ++
        (frameOctets 9 flags2 sid.toNat b ++ rest))
    (hw : Willing d.conn.reads
      (frameOctets 1 flags1 sid.toNat (headersPayload flags1 priority padding a) ++
        frameOctets 9 flags2 sid.toNat b).length)
    (ht : d.responseTable = u.responseTable)
    (whole : HeadersFrame) (hr : u.receiveFrame = (.ok (.headers whole), u'))
    (ea : HeaderBlock) (ha : decodeHeaderBlock a d.responseTable = .ok ea)
    (hk : (∀ e ∈ ea, e.pfx ≠ .incrementalIndexing ∧ e.pfx ≠ .sizeUpdate) ∨
      ∃ eb, decodeHeaderBlock b ⟨[], 0, 0⟩ = .ok eb) :
    ∃ f g d', Received d [.headers f, .continuation g] d' ∧
      f.headerBlock ++ g.headerBlock = whole.headerBlock ∧
      f.priority = priority ∧ f.padding = padding ∧
      d'.responseTable = u'.responseTable ∧ d'.conn.incoming = rest := by
  obtain ⟨h1, h2⟩ := received_headers hf hl hs hu hr
  rw [← ht] at h1 h2
  rcases decodeHeaderBlock_append a b d.responseTable with h3 | ⟨k, h3⟩
  · rw [ha, Res.ok_bind, h1] at h3
    obtain ⟨eb, hb, h4⟩ := Res.bind_eq_ok.1 h3.symm
    have h4 := Res.ok.inj h4
    rw [← h4] at h2
    obtain ⟨t1, hst, h2⟩ := updateDynamicTable_append h2
    have hb1 : decodeHeaderBlock b t1 = .ok eb := by
      rcases hk with hk | ⟨eb', hk⟩
      · rw [updateDynamicTable_still hk] at hst
        obtain rfl := (Prod.mk.inj hst).2
        exact hb
      · rw [decodeHeaderBlock_noReference hk] at hb ⊢
        exact hb
    rw [List.length_append] at hw
    obtain ⟨j, hj, e1⟩ := receive_one hl1 hs hd
      ⟨by have := hw.1; omega, fun x hx => hw.2 x (List.take_subset_take_left _ (by omega) hx)⟩
    have p1 : processTable ⟨castToFhLength (headersPayload flags1 priority padding a).length, 1,
        flags1, 0, sid⟩ (headersPayload flags1 priority padding a) d.responseTable =
        (.ok (.headers ⟨headersPayload flags1 priority padding a,
          ⟨castToFhLength (headersPayload flags1 priority padding a).length, 1, flags1, 0, sid⟩,
          padding, priority, ea⟩), t1) := by
      unfold processTable
      rw [buildFrame_headers _ _ _ rfl]
      unfold buildHeadersFrame
      rw [ofRaw_part (fh := ⟨_, 1, flags1, 0, sid⟩) hf1, ha, Res.ok_bind]
      simp only
      rw [updateFrame_headers rfl, hst]
    rw [p1] at e1
    obtain ⟨j2, hj2, e2⟩ := receive_one (d := ⟨⟨frameOctets 9 flags2 sid.toNat b ++ rest,
        d.conn.sent, d.conn.reads.drop j, d.conn.writes⟩, d.requestTable, t1⟩)
      hl2 hs rfl
      ⟨by show _ ≤ (d.conn.reads.drop j).length
          rw [List.length_drop]; have := hw.1; omega,
       fun x hx => hw.2 x (by
        change x ∈ (d.conn.reads.drop j).take _ at hx
        rw [List.take_drop] at hx
        exact List.take_subset_take_left _ (by omega) (List.mem_of_mem_drop hx))⟩
    have p2 : processTable ⟨castToFhLength b.length, 9, flags2, 0, sid⟩ b t1 =
        (.ok (.continuation ⟨b, ⟨castToFhLength b.length, 9, flags2, 0, sid⟩, eb⟩),
          u'.responseTable) := by
      unfold processTable
      rw [buildFrame_continuation _ _ _ rfl]
      unfold ContinuationFrame.ofRaw
      rw [hb1, Res.ok_bind]
      simp only [Res.pure_eq, Res.ok_bind]
      rw [updateFrame_continuation rfl, h2]
    simp only [p2] at e2
    exact ⟨_, _, _, .cons _ _ _ _ _ e1 (.cons _ _ _ _ _ e2 (.nil _)), h4, rfl, rfl, rfl, rfl⟩
  · rw [ha] at h3; cases h3

/-- C71, where it fails. If the part of the block in the HEADERS frame cannot be decoded by itself -
the split is inside a representation - receiving the HEADERS frame is undefined behaviour, although
the same block in one frame is delivered. -/
theorem C71_inside_violated [Platform] (u u' d : Client) (flags flags1 : UInt8)
    (sid : UInt32) (priority : PriorityOption) (padding a b restU rest : Bytes)
    (hs : sid.toNat < 2 ^ 31) (hf : FitsFlags flags priority padding)
    (hf1 : FitsFlags flags1 priority padding)
    (hl : (headersPayload flags priority padding (a ++ b)).length < 2 ^ 24)
    (hl1 : (headersPayload flags1 priority padding a).length < 2 ^ 24)
    (hu : u.conn.incoming =
      frameOctets 1 flags sid.toNat (headersPayload flags priority padding (a ++ b)) ++ restU)
    (hd : d.conn.incoming =
      frameOctets 1 flags1 sid.toNat (headersPayload flags1 priority padding a) ++ rest)
    (hw : Willing d.conn.reads
      (frameOctets 1 flags1 sid.toNat (headersPayload flags1 priority padding a)).length)
    (ht : d.responseTable = u.responseTable)
    (whole : HeadersFrame) (hr : u.receiveFrame = (.ok (.headers whole), u'))
    (ha : ∀ ea, decodeHeaderBlock a d.responseTable ≠ .ok ea) :
    d.receiveFrame.1.IsUb := by
  obtain ⟨h1, -⟩ := received_headers hf hl hs hu hr
  rw [← ht] at h1
  obtain ⟨j, -, e1⟩ := receive_one hl1 hs hd hw
  rcases decodeHeaderBlock_append a b d.responseTable with h3 | ⟨k, h3⟩
  · rw [h1] at h3
    obtain ⟨ea, h4, -⟩ := Res.bind_eq_ok.1 h3.symm
    exact absurd h4 (ha ea)
  · rw [e1]
    refine ⟨k, ?_⟩
    unfold processTable
    rw [buildFrame_headers _ _ _ rfl]
    unfold buildHeadersFrame
    rw [ofRaw_part (fh := ⟨_, 1, flags1, 0, sid⟩) hf1, h3]
    rfl

/-- A client that has received `x: y` before and now receives these octets. -/
def receiver (incoming : Bytes) : Client :=
  ⟨⟨incoming, [], List.replicate 40 9, []⟩, .default, ⟨[([120], [121])], 34, 4096⟩⟩

/-- The header lists of the frames delivered by the first `n` calls of `receive_frame`. -/
def headerLists [Platform] : Nat → Client → List (List Header)
  | 0, _ => []
  | n + 1, c =>
      match c.receiveFrame with
      | (.ok (.headers f), c') =>
          headersOf f.headerBlock :: headerLists n c'
      | (.ok (.continuation f), c') =>
          headersOf f.headerBlock :: headerLists n c'
      | _ => []

/-- C71, where it fails. The block inserts `k: v` and then refers to the newest entry. In one frame
the reference is resolved in the table as it was before the block (`x: y`); split between the two
representations it is resolved in the table with `k: v`, as RFC 7541 demands: the header lists
differ. -/
theorem C71_insertion_violated [Platform] :
    headerLists 1 (receiver (frameOctets 1 4 1 ([0x40, 1, 107, 1, 118] ++ [0xbe]))) =
      [[([107], [118]), ([120], [121])]] ∧
    headerLists 2 (receiver (frameOctets 1 0 1 [0x40, 1, 107, 1, 118] ++
      frameOctets 9 4 1 [0xbe])) = [[([107], [118])], [([107], [118])]] := by
  rename_i P
  rcases P with ⟨_ | _, _ | _⟩ <;> decide +kernel

attribute [local instance] x86 in
/-- The hypotheses of `C71_between_partial` on a block of an indexed header and a literal, split
between them, padded by two octets. -/
example : FitsFlags 0x0c .zero [0, 0] ∧ FitsFlags 0x08 .zero [0, 0] ∧
    (∃ w, (receiver (frameOctets 1 0x0c 5 (headersPayload 0x0c .zero [0, 0]
      ([0x82] ++ [0x40, 1, 107, 1, 118])))).receiveFrame.1 = .ok (.headers w)) ∧
    decodeHeaderBlock [0x82] (receiver []).responseTable =
      .ok [⟨.indexed, .header (bstr ":method", bstr "GET")⟩] ∧
    Willing (receiver []).conn.reads (frameOctets 1 0x08 5 (headersPayload 0x08 .zero [0, 0] [0x82])
      ++ frameOctets 9 4 5 [0x40, 1, 107, 1, 118]).length := by
  refine ⟨⟨by decide, by decide +kernel, by decide, by decide, fun _ => rfl⟩,
    ⟨by decide, by decide +kernel, by decide, by decide, fun _ => rfl⟩,
    ⟨⟨headersPayload 0x0c .zero [0, 0] ([0x82] ++ [0x40, 1, 107, 1, 118]),
      ⟨9, 1, 0x0c, 0, 5⟩, [0, 0], .zero, [⟨.indexed, .header (bstr ":method", bstr "GET")⟩,
        ⟨.incrementalIndexing, .header ([107], [118])⟩]⟩, by decide +kernel⟩, by decide +kernel,
    by decide +kernel⟩

attribute [local instance] x86 in
/-- The hypotheses of `C71_inside_violated`, and its conclusion: a split after the name. -/
example : (∀ ea, decodeHeaderBlock [0x40, 1, 107] (receiver []).responseTable ≠ .ok ea) ∧
    headerLists 1 (receiver (frameOctets 1 4 5 [0x40, 1, 107, 1, 118])) = [[([107], [118])]] ∧
    (receiver (frameOctets 1 0 5 [0x40, 1, 107])).receiveFrame.1 = .ub .outOfBounds := by
  have h : decodeHeaderBlock [0x40, 1, 107] (receiver []).responseTable = .ub .outOfBounds := by
    decide +kernel
  refine ⟨fun ea he => ?_, by decide +kernel, by decide +kernel⟩
  rw [h] at he
  cases he

end Mh2c
