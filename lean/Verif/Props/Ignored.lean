/-
C101: flags without meaning and reserved bits are ignored.
-/
import Verif.Props.Accessors

namespace Mh2c

open Rfc

/-! ## C101 -/

theorem Alike.bind {α β : Type} {R : α → α → Prop} (x : Res β) (f g : β → Res α)
    (h : ∀ b, Alike R (f b) (g b)) : Alike R (x >>= f) (x >>= g) := by
  cases x with
  | ok b => exact h b
  | throw e => exact .throw e
  | ub k => exact .ub k
  | diverge => exact .diverge

theorem extractPadding_agree {a b : UInt8} (h : hasPadded a ↔ hasPadded b) (raw : Bytes) :
    extractPadding a raw = extractPadding b raw := by
  unfold extractPadding
  rw [padded_ite, padded_ite]
  by_cases hb : hasPadded b
  · rw [if_pos hb, if_pos (h.2 hb)]
  · rw [if_neg hb, if_neg (mt h.1 hb)]

theorem extractPriority_agree {a b : UInt8} (h : hasPriority a ↔ hasPriority b) (raw : Bytes) :
    extractPriority a raw = extractPriority b raw := by
  unfold extractPriority
  rw [priority_ite, priority_ite]
  by_cases hb : hasPriority b
  · rw [if_pos hb, if_pos (h.2 hb)]
  · rw [if_neg hb, if_neg (mt h.1 hb)]

theorem Alike.bind2 {α β : Type} {Q : β → β → Prop} {R : α → α → Prop} {x y : Res β}
    {f g : β → Res α} (h : Alike Q x y) (hf : ∀ b c, Q b c → Alike R (f b) (g c)) :
    Alike R (x >>= f) (y >>= g) := by
  cases h with
  | ok b c h => exact hf b c h
  | throw e => exact .throw e
  | ub k => exact .ub k
  | diverge => exact .diverge

theorem buildFrame_alike [Platform] (a b : FrameHeader) (raw : Bytes) (t : DynamicTable)
    (ht : a.type = b.type) (hs : a.streamId = b.streamId)
    (hp : a.type = 1 ∨ a.type = 5 → (hasPadded a.flags ↔ hasPadded b.flags))
    (hq : a.type = 1 → (hasPriority a.flags ↔ hasPriority b.flags)) :
    Alike SameButHeader (buildFrame a raw t) (buildFrame b raw t) := by
  have hr : ∀ x y, withoutHeader x = withoutHeader y → x.header.type = a.type →
      y.header.type = b.type → x.header.streamId = a.streamId → y.header.streamId = b.streamId →
      SameButHeader x y := fun x y h h1 h2 h3 h4 => ⟨h, by rw [h1, h2, ht], by rw [h3, h4, hs]⟩
  unfold buildFrame
  rw [← ht]
  rcases type_cases a.type with h | h | h | h | h | h | h | h | h | h | h
  · rw [h]
    show Alike _ (buildDataFrame a raw) (buildDataFrame b raw)
    exact .ok _ _ (hr _ _ rfl (by rw [h]; rfl) (by rw [← ht, h]; rfl) rfl rfl)
  · rw [h]
    show Alike _ (buildHeadersFrame a raw t) (buildHeadersFrame b raw t)
    have h1 : Alike (fun f g => SameButHeader (.headers f) (.headers g))
        (HeadersFrame.ofRaw a raw t) (HeadersFrame.ofRaw b raw t) := by
      unfold HeadersFrame.ofRaw
      rw [extractPadding_agree (hp (.inl h))]
      refine Alike.bind _ _ _ fun p => ?_
      simp only
      rw [extractPriority_agree (hq h)]
      refine Alike.bind _ _ _ fun q => Alike.bind _ _ _ fun l =>
        .ok _ _ (hr _ _ rfl rfl rfl rfl rfl)
    unfold buildHeadersFrame
    generalize HeadersFrame.ofRaw a raw t = u, HeadersFrame.ofRaw b raw t = v at h1
    cases h1 with
    | ok f g h => exact .ok _ _ h
    | throw e => exact .ok _ _ (hr _ _ rfl rfl rfl rfl rfl)
    | ub k => exact .ub k
    | diverge => exact .diverge
  · rw [h]
    have h1 : Alike (fun f g => SameButHeader (.priority f) (.priority g))
        (PriorityFrame.ofRaw a raw) (PriorityFrame.ofRaw b raw) := by
      unfold PriorityFrame.ofRaw
      exact Alike.bind _ _ _ fun p => Alike.bind _ _ _ fun _ =>
        .ok _ _ (hr _ _ rfl rfl rfl rfl rfl)
    exact h1.bind2 fun f g h => .ok _ _ h
  · rw [h]
    have h1 : Alike (fun f g => SameButHeader (.rstStream f) (.rstStream g))
        (RstStreamFrame.ofRaw a raw) (RstStreamFrame.ofRaw b raw) := by
      unfold RstStreamFrame.ofRaw
      by_cases hl : raw.length < 4
      · rw [if_pos hl, if_pos hl]
        exact .throw _
      · rw [if_neg hl, if_neg hl]
        exact Alike.bind _ _ _ fun p => .ok _ _ (hr _ _ rfl rfl rfl rfl rfl)
    exact h1.bind2 fun f g h => .ok _ _ h
  · rw [h]
    show Alike _ (buildSettingsFrame a raw) (buildSettingsFrame b raw)
    unfold buildSettingsFrame
    exact Alike.bind _ _ _ fun p =>
      .ok _ _ (hr _ _ rfl (by rw [h]; rfl) (by rw [← ht, h]; rfl) rfl rfl)
  · rw [h]
    have h1 : Alike (fun f g => SameButHeader (.pushPromise f) (.pushPromise g))
        (PushPromiseFrame.ofRaw a raw t) (PushPromiseFrame.ofRaw b raw t) := by
      unfold PushPromiseFrame.ofRaw
      rw [extractPadding_agree (hp (.inr h))]
      exact Alike.bind _ _ _ fun p => Alike.bind _ _ _ fun q => Alike.bind _ _ _ fun _ =>
        Alike.bind _ _ _ fun _ => Alike.bind _ _ _ fun _ => .ok _ _ (hr _ _ rfl rfl rfl rfl rfl)
    exact h1.bind2 fun f g h => .ok _ _ h
  · rw [h]
    exact .ok _ _ (hr _ _ rfl rfl rfl rfl rfl)
  · rw [h]
    have h1 : Alike (fun f g => SameButHeader (.goaway f) (.goaway g))
        (GoawayFrame.ofRaw a raw) (GoawayFrame.ofRaw b raw) := by
      unfold GoawayFrame.ofRaw
      by_cases hl : raw.length < 8
      · rw [if_pos hl, if_pos hl]
        exact .throw _
      · rw [if_neg hl, if_neg hl]
        exact Alike.bind _ _ _ fun p => Alike.bind _ _ _ fun p =>
          .ok _ _ (hr _ _ rfl rfl rfl rfl rfl)
    exact h1.bind2 fun f g h => .ok _ _ h
  · rw [h]
    have h1 : Alike (fun f g => SameButHeader (.windowUpdate f) (.windowUpdate g))
        (WindowUpdateFrame.ofRaw a raw) (WindowUpdateFrame.ofRaw b raw) := by
      unfold WindowUpdateFrame.ofRaw
      exact Alike.bind _ _ _ fun p => Alike.bind _ _ _ fun _ => Alike.bind _ _ _ fun _ =>
        .ok _ _ (hr _ _ rfl rfl rfl rfl rfl)
    exact h1.bind2 fun f g h => .ok _ _ h
  · rw [h]
    have h1 : Alike (fun f g => SameButHeader (.continuation f) (.continuation g))
        (ContinuationFrame.ofRaw a raw t) (ContinuationFrame.ofRaw b raw t) := by
      unfold ContinuationFrame.ofRaw
      exact Alike.bind _ _ _ fun p => .ok _ _ (hr _ _ rfl rfl rfl rfl rfl)
    exact h1.bind2 fun f g h => .ok _ _ h
  · have hn : frameTypeOf a.type = none := by
      unfold frameTypeOf
      rw [List.find?_eq_none]
      intro f hf
      simp only [beq_iff_eq]
      intro he
      rw [← he] at h
      revert h
      cases f <;> decide
    rw [hn]
    exact .throw _

theorem updateTable_alike (f g : Frame) (t : DynamicTable) (h : SameButHeader f g) :
    updateDynamicTableFrame f t = updateDynamicTableFrame g t := by
  obtain ⟨h1, h2, -⟩ := h
  unfold updateDynamicTableFrame
  rw [h2]
  generalize frameTypeOf g.header.type = k
  cases f <;> cases g <;> simp only [withoutHeader, reduceCtorEq] at h1
  all_goals
    rename_i x y
    cases x
    cases y
    injection h1 with h1
    injection h1
    subst_vars
    cases k with
    | none => rfl
    | some k => cases k <;> rfl

/-- C101. Two peers send a frame whose header octets differ only in flags the RFC gives no meaning
for that type and in the reserved bit before the stream identifier. The calls end alike: both return
frames of one class that agree in every member except the header, and in the type and stream
identifier of the header, or both fail in the same way. Both leave the same response table and the
same octets to come. -/
theorem C101_ignored [Platform] (c d : Client) (length : Bytes) (type flags flags' s s' : UInt8)
    (rest : Bytes) (hl : length.length = 3)
    (hc : c.conn.incoming = length ++ [type, flags, s] ++ rest)
    (hd : d.conn.incoming = length ++ [type, flags', s'] ++ rest)
    (hf : ∀ k ∈ definedFlags type, flags.toNat.testBit k = flags'.toNat.testBit k)
    (hs : s.toNat % 128 = s'.toNat % 128) (ht : c.responseTable = d.responseTable)
    (ha : frameLength c.conn.incoming ≤ c.conn.incoming.length)
    (hw : Willing c.conn.reads (frameLength c.conn.incoming))
    (hw' : Willing d.conn.reads (frameLength d.conn.incoming)) :
    Alike SameButHeader c.receiveFrame.1 d.receiveFrame.1 ∧
      c.receiveFrame.2.responseTable = d.receiveFrame.2.responseTable ∧
      c.receiveFrame.2.conn.incoming = d.receiveFrame.2.conn.incoming := by
  obtain ⟨x, y, z, rfl⟩ : ∃ x y z, length = [x, y, z] := by
    rcases length with _ | ⟨x, _ | ⟨y, _ | ⟨z, _ | _⟩⟩⟩ <;> simp_all
  have hfl : frameLength c.conn.incoming = frameLength d.conn.incoming := by
    rw [hc, hd]; rfl
  have hla : c.conn.incoming.length = d.conn.incoming.length := by
    rw [hc, hd]; simp
  obtain ⟨fh1, j1, -, g1, -, e1⟩ := receiveFrame_progress c ha hw.1 hw.2
  rw [hfl, hla] at ha
  obtain ⟨fh2, j2, -, g2, -, e2⟩ := receiveFrame_progress d ha hw'.1 hw'.2
  have h9 : 9 ≤ d.conn.incoming.length := by
    unfold frameLength at ha; omega
  obtain ⟨p, q, r, rest', rfl⟩ : ∃ p q r rest', rest = p :: q :: r :: rest' := by
    rw [hd] at h9
    rcases rest with _ | ⟨x, _ | ⟨y, _ | ⟨z, u⟩⟩⟩
    · simp at h9
    · simp at h9
    · simp at h9
    · exact ⟨_, _, _, _, rfl⟩
  have hb : beValue (c.conn.incoming.take 3) = beValue (d.conn.incoming.take 3) := by
    rw [hc, hd]; rfl
  have hp : c.conn.incoming.drop 9 = d.conn.incoming.drop 9 := by
    rw [hc, hd]; rfl
  have hp' : c.conn.incoming.drop (9 + beValue (d.conn.incoming.take 3)) =
      d.conn.incoming.drop (9 + beValue (d.conn.incoming.take 3)) := by
    rw [← List.drop_drop, ← List.drop_drop, hp]
  rw [hb, hp] at e1
  rw [processFrame_eq] at e1 e2
  generalize (d.conn.incoming.drop 9).take (beValue (d.conn.incoming.take 3)) = raw at e1 e2
  rw [hc, buildFrameHeader_eq _ (by simp)] at g1
  rw [hd, buildFrameHeader_eq _ (by simp)] at g2
  have t1 : fh1.type = type := by rw [← Res.ok.inj g1]; rfl
  have t2 : fh2.type = type := by rw [← Res.ok.inj g2]; rfl
  have f1 : fh1.flags = flags := by rw [← Res.ok.inj g1]; rfl
  have f2 : fh2.flags = flags' := by rw [← Res.ok.inj g2]; rfl
  have hsid : beValue [s, p, q, r] % 2 ^ 31 = beValue [s', p, q, r] % 2 ^ 31 := by
    simp only [beValue_cons, List.length_cons, List.length_nil]
    omega
  have i1 : fh1.streamId = UInt32.ofNat (beValue [s, p, q, r] % 2 ^ 31) := by
    rw [← Res.ok.inj g1]; rfl
  have i2 : fh2.streamId = UInt32.ofNat (beValue [s', p, q, r] % 2 ^ 31) := by
    rw [← Res.ok.inj g2]; rfl
  have hal : Alike SameButHeader (buildFrame fh1 raw d.responseTable)
      (buildFrame fh2 raw d.responseTable) := by
    refine buildFrame_alike fh1 fh2 raw _ (by rw [t1, t2]) (by rw [i1, i2, hsid]) ?_ ?_
    · rw [t1, f1, f2]
      rintro (rfl | rfl)
      · show (_ = _) ↔ (_ = _)
        rw [hf 3 (by decide)]
      · show (_ = _) ↔ (_ = _)
        rw [hf 3 (by decide)]
    · rw [t1, f1, f2]
      rintro rfl
      show (_ = _) ↔ (_ = _)
      rw [hf 5 (by decide)]
  rw [e1, e2]
  simp only [Client.consumed]
  rw [ht, hp']
  unfold processTable
  generalize buildFrame fh1 raw d.responseTable = u, buildFrame fh2 raw d.responseTable = v at hal
  cases hal with
  | throw e => exact ⟨.throw e, rfl, rfl⟩
  | ub k => exact ⟨.ub k, rfl, rfl⟩
  | diverge => exact ⟨.diverge, rfl, rfl⟩
  | ok f g h =>
    simp only
    rw [updateTable_alike f g _ h]
    rcases updateDynamicTableFrame g d.responseTable with ⟨_ | e | k | _, t⟩
    · exact ⟨.ok f g h, rfl, trivial⟩
    · exact ⟨.throw e, rfl, trivial⟩
    · exact ⟨.ub k, rfl, trivial⟩
    · exact ⟨.diverge, rfl, trivial⟩

/-- Non-vacuity of C101: a padded HEADERS frame on stream 1 with five meaningless bits set, and the
same frame with none of them: both calls return, and the frames differ in the header only. -/
example [Platform] :
    let u : Client := .new ⟨[0, 0, 3, 1, 0xde, 128, 0, 0, 1, 1, 0x88, 0], [], List.replicate 12 1, []⟩
    let v : Client := .new ⟨[0, 0, 3, 1, 0x0c, 0, 0, 0, 1, 1, 0x88, 0], [], [12, 9, 7, 7, 7, 7, 7, 7, 7, 7, 7, 7], []⟩
    (∀ k ∈ definedFlags 1, (0xde : UInt8).toNat.testBit k = (0x0c : UInt8).toNat.testBit k) ∧
      Willing u.conn.reads (frameLength u.conn.incoming) ∧
      Willing v.conn.reads (frameLength v.conn.incoming) ∧
      (u.receiveFrame.1.bind fun f => v.receiveFrame.1.bind fun g =>
        .ok (decide (f = g), decide (withoutHeader f = withoutHeader g))) = .ok (false, true) := by
  rename_i P
  rcases P with ⟨_ | _, _ | _⟩ <;> decide +kernel

end Mh2c
