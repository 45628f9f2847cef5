/-
C71, C85: exactly what of a server's header blocks is understood, over a whole connection.
-/
import Verif.Spec.ServerMeans
import Verif.Props.Kept
import Verif.Props.ServerStream

namespace Mh2c

open Rfc DynamicTable

theorem short_table {t t' : Table} {bs : Bytes} {steps : List BlockStep}
    (h : ShortBlock t bs steps t') : (steps.map (·.item)).foldl Item.apply t = t' := by
  induction h with
  | nil => rfl
  | cons _ _ _ _ _ _ _ _ ih => exact ih

/-- Names stay non-empty. -/
theorem short_named {t t' : Table} {bs : Bytes} {steps : List BlockStep}
    (h : ShortBlock t bs steps t') (ht : ∀ f ∈ t.entries, f.1 ≠ [])
    (hn : ∀ s ∈ steps, ∀ f, s.item = .incremental f → f.1 ≠ []) : ∀ f ∈ t'.entries, f.1 ≠ [] := by
  induction h with
  | nil => exact ht
  | cons t t' bs rest item steps _ _ ih =>
      refine ih ?_ (fun s hs => hn s (List.mem_cons_of_mem _ hs))
      have h0 := hn _ List.mem_cons_self
      intro f hf
      cases item with
      | incremental g =>
          have hf : f ∈ takeFit t.max (g :: t.entries) := hf
          rcases List.mem_cons.1 ((takeFit_prefix _ _).subset hf) with rfl | hf
          · exact h0 _ rfl
          · exact ht f hf
      | sizeUpdate n =>
          have hf : f ∈ takeFit n t.entries := hf
          exact ht f ((takeFit_prefix _ _).subset hf)
      | indexed _ => exact ht f hf
      | withoutIndexing _ => exact ht f hf
      | neverIndexed _ => exact ht f hf

/-- A received frame is what `processTable` makes of the octets. -/
theorem received_process [Platform] {d d1 : Client} {g : Frame} {type flags : UInt8} {sid : UInt32}
    {payload rest : Bytes} (hl : payload.length < 2 ^ 24) (hs : sid.toNat < 2 ^ 31)
    (hi : d.conn.incoming = frameOctets type flags sid.toNat payload ++ rest)
    (hr : d.receiveFrame = (.ok g, d1)) :
    buildFrame ⟨castToFhLength payload.length, type, flags, 0, sid⟩ payload d.responseTable =
      .ok g := by
  obtain ⟨f1, f2, f3, f4, f5⟩ := front_frame type flags sid payload rest hl hs
  obtain ⟨reads', -, ⟨k, -, -, e⟩ | ⟨fh, e1, -, -, -, e⟩⟩ := receiveFrame_cases d
  · rw [hr] at e; cases e
  · rw [hi, f3] at e1
    obtain rfl := (Res.ok.inj e1).symm
    rw [hi, f2, f4, processFrame_eq, hr] at e
    change _ = ((processTable _ _ d.responseTable).1, _) at e
    simp only [Client.consumed] at e
    injection e with e1 _
    unfold processTable at e1
    cases hb : buildFrame ⟨castToFhLength payload.length, type, flags, 0, sid⟩ payload
        d.responseTable with
    | ok f =>
        rw [hb] at e1
        simp only at e1
        rcases hu : updateDynamicTableFrame f d.responseTable with ⟨r, t'⟩
        rw [hu] at e1
        cases r with
        | ok x => cases x; rw [Res.ok.inj e1]
        | throw x => cases e1
        | ub x => cases e1
        | diverge => cases e1
    | throw x => rw [hb] at e1; cases e1
    | ub x => rw [hb] at e1; cases e1
    | diverge => rw [hb] at e1; cases e1

/-- A frame built from a payload with a header block: its header list is that of the block. -/
theorem built_headerList [Platform] {fh : FrameHeader} {payload block : Bytes} {t : DynamicTable}
    {f : Frame} (hc : CarriesBlock fh.flags fh.type payload block)
    (hb : buildFrame fh payload t = .ok f) (hk : f.kind = some fh.type) :
    ∃ es, decodeHeaderBlock block t = .ok es ∧ f.headerList = headersOf es := by
  cases built_of_ok hb with
  | headers ht g hg => exact ⟨_, headers_block (ht ▸ hc) hg, rfl⟩
  | pushPromise ht g hg => exact ⟨_, pushPromise_block (ht ▸ hc) hg, rfl⟩
  | continuation ht g hg => exact ⟨_, continuation_block (ht ▸ hc) hg, rfl⟩
  | rawHeaders => cases hk
  | data ht => rw [ht] at hc; cases hc
  | _ =>
      rename_i ht _ _
      rw [ht] at hc
      cases hc

theorem server_means [Platform] {t t' : Table} {wire : Bytes} {out : List MeantFrame}
    (h : ServerMeans t wire out t') (d : Client) (rest : Bytes) (ht : d.responseTable.Inv)
    (htab : d.responseTable.toRfc = t) (hn : ∀ f ∈ t.entries, f.1 ≠ [])
    (hi : d.conn.incoming = wire ++ rest) (hw : Willing d.conn.reads wire.length) :
    ((∃ gs d', Received d gs d' ∧ gs.map (fun g => (g.kind, g.headerList)) =
        out.map (fun o => (some o.type, o.headers))) ↔ ∀ o ∈ out, o.Kept) ∧
    ((∀ o ∈ out, o.Kept) → ∃ gs d', Received d gs d' ∧
      gs.map (fun g => (g.kind, g.headerList)) = out.map (fun o => (some o.type, o.headers)) ∧
      d'.conn.incoming = rest ∧ d'.responseTable.toRfc = t') := by
  induction h generalizing d with
  | nil t =>
      exact ⟨⟨fun _ o ho => (by cases ho), fun _ => ⟨[], d, .nil d, rfl⟩⟩,
        fun _ => ⟨[], d, .nil d, rfl, hi, htab⟩⟩
  | block t t1 t' type flags sid payload block wire' steps out hs hl hc hb hf hns htol _ ih =>
      subst htab
      rw [List.append_assoc] at hi
      rw [List.length_append] at hw
      have hex := C32_exact_partial d.responseTable hn d.responseTable.maxTableSize _ block steps t1
        hb htol
      have good : (∀ s ∈ steps, Kept d.responseTable.toRfc s) →
          ∃ f d1, d.receiveFrame = (.ok f, d1) ∧ d1.conn.incoming = wire' ++ rest ∧
            d1.responseTable.Inv ∧ d1.responseTable.toRfc = t1 ∧
            Willing d1.conn.reads wire'.length ∧ f.kind = some type ∧
            f.headerList = fields (steps.map (·.item)) := by
        intro hk
        have hd := kept_decodes (max := d.responseTable.maxTableSize) hn hb htol hk
        obtain ⟨table1, u1, u2, u3⟩ := update_refines ht hf
        obtain ⟨f, p1, p2, p3⟩ := process_block
          (fh := ⟨castToFhLength payload.length, type, flags, 0, sid⟩) hc hd u1
        obtain ⟨d1, e1, e2, e3, e4⟩ := receive_front hl hs hi p1 hw
        refine ⟨f, d1, e1, e2, e3 ▸ u2, ?_, e4, p2, ?_⟩
        · rw [e3, u3]; exact short_table hb
        · rw [p3]
          obtain ⟨es, k1, k2⟩ := hex.2 hk
          rw [hd] at k1
          rw [Res.ok.inj k1]
          exact k2
      have fwd : (∀ o ∈ (⟨type, d.responseTable.toRfc, steps⟩ : MeantFrame) :: out, o.Kept) →
          ∃ gs d', Received d gs d' ∧ gs.map (fun g => (g.kind, g.headerList)) =
            ((⟨type, d.responseTable.toRfc, steps⟩ : MeantFrame) :: out).map
              (fun o => (some o.type, o.headers)) ∧
            d'.conn.incoming = rest ∧ d'.responseTable.toRfc = t' := by
        intro hk
        rw [List.forall_mem_cons] at hk
        obtain ⟨f, d1, e1, e2, e3, e4, e5, e6, e7⟩ := good hk.1
        obtain ⟨gs, d', r1, r2, r3, r4⟩ := (ih d1 e3 e4 (short_named hb hn hns) e2 e5).2 hk.2
        refine ⟨f :: gs, d', .cons _ _ _ _ _ e1 r1, ?_, r3, r4⟩
        rw [List.map_cons, List.map_cons, r2, e6, e7]
        rfl
      refine ⟨⟨?_, fun hk => ?_⟩, fwd⟩
      · rintro ⟨gs, d', hr, hg⟩
        cases hr with
        | nil => cases hg
        | cons _ d1 _ g gs hr1 hr2 =>
            rw [List.map_cons, List.map_cons] at hg
            injection hg with hg1 hg2
            injection hg1 with hg3 hg4
            have hbf := received_process hl hs hi hr1
            obtain ⟨es, k1, k2⟩ := built_headerList
              (fh := ⟨castToFhLength payload.length, type, flags, 0, sid⟩) hc hbf hg3
            have hk : ∀ s ∈ steps, Kept d.responseTable.toRfc s :=
              hex.1 ⟨es, k1, by rw [← k2, hg4]; rfl⟩
            obtain ⟨f, d2, e1, e2, e3, e4, e5, -, -⟩ := good hk
            rw [hr1] at e1
            obtain rfl := (Prod.mk.inj e1).2
            exact List.forall_mem_cons.2
              ⟨hk, (ih d1 e3 e4 (short_named hb hn hns) e2 e5).1.1 ⟨gs, d', hr2, hg2⟩⟩
      · obtain ⟨gs, d', r1, r2, -, -⟩ := fwd hk
        exact ⟨gs, d', r1, r2⟩
  | other t t' type flags sid payload wire' out hs hl hb hc h4 _ ih =>
      rw [List.append_assoc] at hi
      rw [List.length_append] at hw
      obtain ⟨f, p1, p2, p3⟩ := process_other
        (fh := ⟨castToFhLength payload.length, type, flags, 0, sid⟩) d.responseTable hb hc h4
      obtain ⟨d1, e1, e2, e3, e4⟩ := receive_front hl hs hi p1 hw
      obtain ⟨i1, i2⟩ := ih d1 (e3 ▸ ht) (e3 ▸ htab) hn e2 e4
      have hk0 : (⟨type, t, []⟩ : MeantFrame).Kept := fun s hs => (by cases hs)
      have fwd : (∀ o ∈ (⟨type, t, []⟩ : MeantFrame) :: out, o.Kept) →
          ∃ gs d', Received d gs d' ∧ gs.map (fun g => (g.kind, g.headerList)) =
            ((⟨type, t, []⟩ : MeantFrame) :: out).map (fun o => (some o.type, o.headers)) ∧
            d'.conn.incoming = rest ∧ d'.responseTable.toRfc = t' := by
        intro hk
        rw [List.forall_mem_cons] at hk
        obtain ⟨gs, d', r1, r2, r3, r4⟩ := i2 hk.2
        refine ⟨f :: gs, d', .cons _ _ _ _ _ e1 r1, ?_, r3, r4⟩
        rw [List.map_cons, List.map_cons, r2, p2, p3]
        rfl
      refine ⟨⟨?_, fun hk => ?_⟩, fwd⟩
      · rintro ⟨gs, d', hr, hg⟩
        cases hr with
        | nil => cases hg
        | cons _ d2 _ g gs hr1 hr2 =>
            rw [List.map_cons, List.map_cons] at hg
            injection hg with hg1 hg2
            rw [hr1] at e1
            obtain rfl := (Prod.mk.inj e1).2
            exact List.forall_mem_cons.2 ⟨hk0, i1.1 ⟨gs, d', hr2, hg2⟩⟩
      · obtain ⟨gs, d', r1, r2, -, -⟩ := fwd hk
        exact ⟨gs, d', r1, r2⟩

/-- C85, exactly. Of everything a server sends over a connection, from the first frame on, each frame
is received as a frame of its type with exactly the headers the server meant if and only if every
reference in every frame denotes, in the table at the start of that frame (with the misprint at
index 20), what the server means by it. Missing (false of the code): frames with other references,
and the servers that `ServerMeans` leaves out. -/
theorem C85_exact_partial [Platform] (conn : Conn) (wire rest : Bytes) (out : List MeantFrame)
    (t' : Table) (h : ServerMeans ⟨[], 4096⟩ wire out t') (hi : conn.incoming = wire ++ rest)
    (hw : Willing conn.reads wire.length) :
    (∃ frames c', Received (Client.new conn) frames c' ∧
      frames.map (fun f => (f.kind, f.headerList)) = out.map (fun o => (some o.type, o.headers))) ↔
    ∀ o ∈ out, o.Kept :=
  (server_means h (Client.new conn) rest inv_default rfl (fun f hf => (by cases hf)) hi hw).1

/-- C71, exactly, for blocks split between representations. A client whose response table is the
server's receives HEADERS with the first part `a` of a header block and CONTINUATION with the second
part `b`. It delivers the headers the server means by the two parts if and only if every reference
in `a` denotes what it should in the table before the block, and every reference in `b` in the table
after `a`. Missing: splits inside a representation, see `C71_inside_violated`, and other references,
for which it is false. -/
theorem C71_exact_partial [Platform] (d : Client) (flags1 flags2 : UInt8) (sid : UInt32)
    (payload a b rest : Bytes) (stepsA stepsB : List BlockStep) (t1 t2 : Table)
    (ht : Accounted d.responseTable) (hmax : d.responseTable.maxTableSize < 2 ^ 63)
    (hn : NamedTable d.responseTable) (hs : sid.toNat < 2 ^ 31)
    (hl1 : payload.length < 2 ^ 24) (hl2 : b.length < 2 ^ 24)
    (hc : CarriesBlock flags1 1 payload a)
    (ha : ShortBlock d.responseTable.toRfc a stepsA t1) (hb : ShortBlock t1 b stepsB t2)
    (hfa : Fits d.responseTable.maxTableSize (stepsA.map (·.item)))
    (hfb : Fits t1.max (stepsB.map (·.item)))
    (hnames : ∀ s ∈ stepsA ++ stepsB, ∀ f, s.item = .incremental f → f.1 ≠ [])
    (htol : ∀ s ∈ stepsA ++ stepsB, ItemTolerant s.item)
    (hd : d.conn.incoming =
      frameOctets 1 flags1 sid.toNat payload ++ (frameOctets 9 flags2 sid.toNat b ++ rest))
    (hw : Willing d.conn.reads
      (frameOctets 1 flags1 sid.toNat payload ++ frameOctets 9 flags2 sid.toNat b).length) :
    (∃ f g d', Received d [.headers f, .continuation g] d' ∧
      headersOf f.headerBlock = fields (stepsA.map (·.item)) ∧
      headersOf g.headerBlock = fields (stepsB.map (·.item))) ↔
    (∀ s ∈ stepsA, Kept d.responseTable.toRfc s) ∧ ∀ s ∈ stepsB, Kept t1 s := by
  have hm : ServerMeans d.responseTable.toRfc
      (frameOctets 1 flags1 sid.toNat payload ++ (frameOctets 9 flags2 sid.toNat b ++ []))
      [⟨1, d.responseTable.toRfc, stepsA⟩, ⟨9, t1, stepsB⟩] t2 := by
    refine .block _ t1 _ 1 flags1 sid payload a _ stepsA _ hs hl1 hc ha hfa
      (fun s hs => hnames s (List.mem_append_left _ hs))
      (fun s hs => htol s (List.mem_append_left _ hs)) ?_
    exact .block _ t2 _ 9 flags2 sid b b _ stepsB _ hs hl2 (.continuation b) hb hfb
      (fun s hs => hnames s (List.mem_append_right _ hs))
      (fun s hs => htol s (List.mem_append_right _ hs)) (.nil _)
  have key := (server_means hm d rest ⟨ht.1, ht.2, hmax⟩ rfl hn
    (by rw [hd, List.append_nil, List.append_assoc]) (by rw [List.append_nil]; exact hw)).1
  have hrhs : (∀ o ∈ ([⟨1, d.responseTable.toRfc, stepsA⟩, ⟨9, t1, stepsB⟩] : List MeantFrame),
      o.Kept) ↔ (∀ s ∈ stepsA, Kept d.responseTable.toRfc s) ∧ ∀ s ∈ stepsB, Kept t1 s := by
    simp [MeantFrame.Kept]
  rw [← hrhs, ← key]
  constructor
  · rintro ⟨f, g, d', h1, h2, h3⟩
    refine ⟨_, d', h1, ?_⟩
    simp only [List.map_cons, List.map_nil, Frame.kind, Frame.headerList, h2, h3]
    rfl
  · rintro ⟨gs, d', h1, h2⟩
    have hlen : gs.length = 2 := by have := congrArg List.length h2; simpa using this
    obtain ⟨f, g, rfl⟩ := List.length_eq_two.1 hlen
    simp only [List.map_cons, List.map_nil, List.cons.injEq, Prod.mk.injEq, and_true] at h2
    obtain ⟨⟨k1, l1⟩, k2, l2⟩ := h2
    cases f <;> cases k1
    cases g <;> cases k2
    exact ⟨_, _, d', h1, l1, l2⟩

section Example

attribute [local instance] x86

/-- `k: v`, inserted, and a reference to it. -/
theorem insertion_steps (t : Table) (ht : t.max = 4096) (he : t.entries = []) :
    ShortBlock t [0x40, 1, 107, 1, 118] [⟨t, [0x40, 1, 107, 1, 118], .incremental ([107], [118])⟩]
      ⟨[([107], [118])], 4096⟩ ∧
    ShortBlock ⟨[([107], [118])], 4096⟩ [0xbe]
      [⟨⟨[([107], [118])], 4096⟩, [0xbe], .indexed ([107], [118])⟩] ⟨[([107], [118])], 4096⟩ := by
  obtain ⟨es, max⟩ := t
  obtain rfl : es = [] := he
  obtain rfl : max = 4096 := ht
  refine ⟨.cons _ _ _ [] _ _ (.incremental _ _ _ _ (by decide) ?_) (.nil _),
    .cons _ _ _ [] _ _ (.indexed _ _ _ 62 _ (by decide) (by decide) (by decide)) (.nil _)⟩
  exact .newName _ [1, 107, 1, 118] [1, 118] [] _ _ (by decide)
    (.plain 1 _ [107] _ (by decide) (by decide)) (.plain 1 _ [118] _ (by decide) (by decide))

/-- The hypotheses of `C71_exact_partial`, and both sides of it, for an insertion in HEADERS and a
reference to it in CONTINUATION; in one HEADERS frame the same block is not kept. -/
example : ∃ stepsA stepsB t1,
    ShortBlock ⟨[], 4096⟩ [0x40, 1, 107, 1, 118] stepsA t1 ∧ ShortBlock t1 [0xbe] stepsB t1 ∧
    (∀ s ∈ stepsA, Kept ⟨[], 4096⟩ s) ∧ (∀ s ∈ stepsB, Kept t1 s) ∧
    ShortBlock ⟨[], 4096⟩ [0x40, 1, 107, 1, 118, 0xbe]
      [⟨⟨[], 4096⟩, [0x40, 1, 107, 1, 118, 0xbe], .incremental ([107], [118])⟩,
       ⟨⟨[([107], [118])], 4096⟩, [0xbe], .indexed ([107], [118])⟩] t1 ∧
    ¬ Kept ⟨[], 4096⟩ ⟨⟨[([107], [118])], 4096⟩, [0xbe], .indexed ([107], [118])⟩ ∧
    Fits 4096 (stepsA.map (·.item)) ∧ Fits t1.max (stepsB.map (·.item)) ∧
    CarriesBlock 0 1 [0x40, 1, 107, 1, 118] [0x40, 1, 107, 1, 118] := by
  obtain ⟨h1, h2⟩ := insertion_steps ⟨[], 4096⟩ rfl rfl
  refine ⟨_, _, _, h1, h2, ?_, ?_, ?_, ?_, ⟨by decide, trivial⟩, trivial,
    .headers _ _ (by decide) (.plain _ (by decide))⟩
  · intro s hs
    obtain rfl := List.mem_singleton.1 hs
    exact ⟨fun i hi => (by cases hi), fun i hi h0 => absurd (Option.some.inj hi).symm h0⟩
  · intro s hs
    obtain rfl := List.mem_singleton.1 hs
    refine ⟨fun i hi => ?_, fun i hi => (by cases hi)⟩
    obtain rfl := Option.some.inj hi
    decide
  · refine .cons _ _ _ [0xbe] _ _ (.incremental _ _ _ _ (by decide) ?_) h2
    exact .newName _ [1, 107, 1, 118, 0xbe] [1, 118, 0xbe] [0xbe] _ _ (by decide)
      (.plain 1 _ [107] _ (by decide) (by decide)) (.plain 1 _ [118] _ (by decide) (by decide))
  · intro hk
    exact absurd (hk.1 62 (by decide)) (by decide)

/-- The hypothesis of `C85_exact_partial`: two responses over one connection, the second refers to
what the first inserted. -/
example : ∃ out t', ServerMeans ⟨[], 4096⟩
    (frameOctets 1 4 (1 : UInt32).toNat [0x40, 1, 107, 1, 118] ++
      (frameOctets 1 5 (3 : UInt32).toNat [0xbe] ++
        (frameOctets 0 1 (1 : UInt32).toNat [104, 105] ++ []))) out t' ∧
    out.map (fun o => (o.type, o.headers)) =
      [(1, [([107], [118])]), (1, [([107], [118])]), (0, [])] := by
  obtain ⟨h1, h2⟩ := insertion_steps ⟨[], 4096⟩ rfl rfl
  refine ⟨_, _, .block _ _ _ 1 4 1 _ _ _ _ _ (by decide) (by decide)
    (.headers _ _ (by decide) (.plain _ (by decide))) h1 ⟨by decide, trivial⟩ ?_ ?_
    (.block _ _ _ 1 5 3 _ _ _ _ _ (by decide) (by decide)
      (.headers _ _ (by decide) (.plain _ (by decide))) h2 trivial ?_ ?_
      (.other _ _ 0 1 1 _ _ _ (by decide) (by decide) (by decide)
        (.data _ _ (.plain _ (by decide))) (fun h => absurd h (by decide)) (.nil _))), rfl⟩
  · intro s hs f hf
    obtain rfl := List.mem_singleton.1 hs
    obtain rfl := Item.incremental.inj hf
    decide
  · intro s hs
    obtain rfl := List.mem_singleton.1 hs
    exact ⟨.inl rfl, .inl rfl⟩
  · intro s hs f hf
    obtain rfl := List.mem_singleton.1 hs
    cases hf
  · intro s hs
    obtain rfl := List.mem_singleton.1 hs
    trivial

end Example

end Mh2c
