/-
C85: what a server sends over a whole connection is what the client delivers.
-/
import Verif.Props.HeaderRfc
import Verif.Spec.ServerStream
import Verif.Props.FrameRules
import Verif.Props.Conversation

namespace Mh2c

open Rfc DynamicTable

/-- The table after a block is the items applied in order. -/
theorem plain_table {t0 t t' : Table} {bs : Bytes} {items : List Item}
    (h : PlainBlock t0 t bs items t') : items.foldl Item.apply t = t' := by
  induction h with
  | nil => rfl
  | cons _ _ _ _ _ _ _ _ ih => exact ih

/-- One frame with a header block. -/
theorem process_block [Platform] {fh : FrameHeader} {payload block : Bytes} {t t' : DynamicTable}
    {es : HeaderBlock} (hc : CarriesBlock fh.flags fh.type payload block)
    (hd : decodeHeaderBlock block t = .ok es) (hu : updateDynamicTable es t = (.ok (), t')) :
    ∃ f, processTable fh payload t = (.ok f, t') ∧ f.kind = some fh.type ∧
      f.headerList = headersOf es := by
  obtain ⟨f, hf, hk⟩ := legal_accepted fh payload t (.block _ _ block hc)
    (fun _ => ⟨block, hc, es, hd⟩)
  have hbuilt := built_of_ok hf
  have hup := updateFrame_built hbuilt
  refine ⟨f, ?_, hk, ?_⟩
  all_goals
    cases hbuilt with
    | headers ht g hg =>
        have := headers_block (ht ▸ hc) hg
        rw [hd] at this
        obtain rfl := Res.ok.inj this
        first
          | rfl
          | (unfold processTable; rw [hf]; simp only [hup, hu])
    | pushPromise ht g hg =>
        have := pushPromise_block (ht ▸ hc) hg
        rw [hd] at this
        obtain rfl := Res.ok.inj this
        first
          | rfl
          | (unfold processTable; rw [hf]; simp only [hup, hu])
    | continuation ht g hg =>
        have := continuation_block (ht ▸ hc) hg
        rw [hd] at this
        obtain rfl := Res.ok.inj this
        first
          | rfl
          | (unfold processTable; rw [hf]; simp only [hup, hu])
    | rawHeaders => cases hk
    | data ht => rw [ht] at hc; cases hc
    | _ =>
        rename_i ht _ _
        rw [ht] at hc
        cases hc

/-- One frame of another type. -/
theorem process_other [Platform] {fh : FrameHeader} {payload : Bytes} (t : DynamicTable)
    (hb : fh.type ∉ [1, 5, 9]) (hc : LayoutRule fh.flags fh.type payload)
    (h4 : fh.type = 4 → NoTableSize payload) :
    ∃ f, processTable fh payload t = (.ok f, t) ∧ f.kind = some fh.type ∧ f.headerList = [] := by
  obtain ⟨f, hf, hk⟩ := legal_accepted fh payload t hc (fun h => absurd h hb)
  have hbuilt := built_of_ok hf
  have hup := updateFrame_built hbuilt
  have hset : ∀ s, f = .settings s → s.payload.lookup 1 = none := by
    intro s hs
    subst hs
    have h4' : fh.type = 4 := (Option.some.inj hk).symm
    have hm : payload.length % 6 = 0 := by
      generalize fh.type = ty at hc h4'
      subst h4'
      cases hc with
      | settings _ h _ => exact h
      | block _ _ _ h => cases h
    obtain ⟨settings, g, e1, e2, e3⟩ := C50_well_formed_partial fh h4' payload t hm
    rw [hf] at e2
    injection e2 with e2
    injection e2 with e2
    subst e2
    rw [e3]
    exact h4 h4' settings e1
  refine ⟨f, ?_, hk, ?_⟩
  · unfold processTable
    rw [hf]
    simp only
    rw [hup]
    cases hbuilt with
    | headers ht => exact absurd (by rw [ht]; decide) hb
    | pushPromise ht => exact absurd (by rw [ht]; decide) hb
    | continuation ht => exact absurd (by rw [ht]; decide) hb
    | rawHeaders => cases hk
    | settings ht p hp => simp only [hset _ rfl]
    | _ => rfl
  · cases hbuilt with
    | headers ht => exact absurd (by rw [ht]; decide) hb
    | pushPromise ht => exact absurd (by rw [ht]; decide) hb
    | continuation ht => exact absurd (by rw [ht]; decide) hb
    | _ => rfl

/-- The first frame of a stream, and what remains. -/
theorem server_step [Platform] {t t' : Table} {wire : Bytes} {type : UInt8} {hs : List Field}
    {out : List (UInt8 × List Field)} (h : ServerSends t wire ((type, hs) :: out) t')
    {table : DynamicTable} (ht : table.Inv) (htab : table.toRfc = t) :
    ∃ (flags : UInt8) (sid : UInt32) (payload rest : Bytes) (f : Frame) (table1 : DynamicTable),
      wire = frameOctets type flags sid.toNat payload ++ rest ∧ payload.length < 2 ^ 24 ∧
      sid.toNat < 2 ^ 31 ∧
      processTable ⟨castToFhLength payload.length, type, flags, 0, sid⟩ payload table =
        (.ok f, table1) ∧ f.kind = some type ∧ f.headerList = hs ∧ table1.Inv ∧
      ServerSends table1.toRfc rest out t' := by
  cases h with
  | block _ t1 _ _ flags sid payload block rest items _ hs hl hc hb hf htol hr =>
      subst htab
      obtain ⟨h1, h2, h3⟩ := C32_client_decodes_partial table table.maxTableSize block items t1 hb htol
      obtain ⟨table1, u1, u2, u3⟩ := update_refines ht hf
      obtain ⟨f, p1, p2, p3⟩ := process_block
        (fh := ⟨castToFhLength payload.length, type, flags, 0, sid⟩) hc h2 u1
      refine ⟨flags, sid, payload, rest, f, table1, rfl, hl, hs, p1, p2, by rw [p3, h3], u2, ?_⟩
      have : table1.toRfc = t1 := by rw [u3]; exact plain_table hb
      rw [this]
      exact hr
  | other _ _ _ flags sid payload rest _ hs hl hb hc h4 hr =>
      obtain ⟨f, p1, p2, p3⟩ := process_other
        (fh := ⟨castToFhLength payload.length, type, flags, 0, sid⟩) table hb hc h4
      exact ⟨flags, sid, payload, rest, f, table, rfl, hl, hs, p1, p2, p3, ht, htab ▸ hr⟩

/-- Receiving one frame over a transport that makes progress. -/
theorem receive_front [Platform] {d : Client} {g : Frame} {type flags : UInt8} {sid : UInt32}
    {payload rest : Bytes} {t' : DynamicTable} {n : Nat} (hl : payload.length < 2 ^ 24)
    (hs : sid.toNat < 2 ^ 31)
    (hi : d.conn.incoming = frameOctets type flags sid.toNat payload ++ rest)
    (hp : processTable ⟨castToFhLength payload.length, type, flags, 0, sid⟩ payload
      d.responseTable = (.ok g, t'))
    (hw : Willing d.conn.reads ((frameOctets type flags sid.toNat payload).length + n)) :
    ∃ d1, d.receiveFrame = (.ok g, d1) ∧ d1.conn.incoming = rest ∧ d1.responseTable = t' ∧
      Willing d1.conn.reads n := by
  obtain ⟨f1, f2, f3, f4, f5⟩ := front_frame type flags sid payload rest hl hs
  rw [f1] at hw
  have hprog := receiveFrame_progress d
  rw [hi, f2, f3, f4] at hprog
  obtain ⟨fh, j, hj, e1, -, e2⟩ := hprog (by rw [List.length_append, f1]; omega)
    (by have := hw.1; omega)
    (fun r hr => hw.2 r (List.take_subset_take_left _ (by omega) hr))
  obtain rfl := (Res.ok.inj e1).symm
  rw [processFrame_eq] at e2
  change _ = ((processTable _ _ d.responseTable).1, _) at e2
  simp only [Client.consumed] at e2
  rw [hp, hi, f5] at e2
  simp only at e2
  refine ⟨_, e2, rfl, rfl, ?_, ?_⟩
  · show _ ≤ (d.conn.reads.drop j).length
    rw [List.length_drop]; have := hw.1; omega
  · intro k hk
    refine hw.2 k ?_
    change k ∈ (d.conn.reads.drop j).take n at hk
    rw [List.take_drop] at hk
    exact List.take_subset_take_left _ (by omega) (List.mem_of_mem_drop hk)

theorem server_stream [Platform] {t t' : Table} {wire : Bytes} {out : List (UInt8 × List Field)}
    (h : ServerSends t wire out t') (d : Client) (rest : Bytes) (ht : d.responseTable.Inv)
    (htab : d.responseTable.toRfc = t) (hi : d.conn.incoming = wire ++ rest)
    (hw : Willing d.conn.reads wire.length) :
    ∃ gs d', Received d gs d' ∧ gs.map (fun g => (g.kind, g.headerList)) =
        out.map (fun o => (some o.1, o.2)) ∧ d'.conn.incoming = rest ∧
      d'.responseTable.toRfc = t' := by
  induction out generalizing t wire d with
  | nil =>
      cases h
      exact ⟨[], d, .nil d, rfl, hi, htab⟩
  | cons o out ih =>
      obtain ⟨type, hs⟩ := o
      obtain ⟨flags, sid, payload, wire', f, t1, rfl, a1, a2, a3, a4, a5, a6, a7⟩ :=
        server_step h ht htab
      rw [List.append_assoc] at hi
      rw [List.length_append] at hw
      obtain ⟨d1, e1, e2, e3, e4⟩ := receive_front a1 a2 hi a3 hw
      obtain ⟨gs, d', r1, r2, r3, r4⟩ := ih (e3 ▸ a7) d1 (e3 ▸ a6) rfl e2 e4
      refine ⟨f :: gs, d', .cons _ _ _ _ _ e1 r1, ?_, r3, r4⟩
      rw [List.map_cons, List.map_cons, r2, a4, a5]

/-- C85, the part that holds. Everything a restrained server sends over a connection, from the first
frame on, is received frame by frame: for each frame a frame of its type with exactly the headers
the server meant, however the transport cuts the stream; after the last one the two HPACK tables
are the same. Missing: the servers excluded in `ServerSends`, for which it is false (C20, C31, C32,
C62, C71). -/
theorem C85_server_stream_partial [Platform] (conn : Conn) (wire rest : Bytes)
    (out : List (UInt8 × List Field)) (t' : Table) (h : ServerSends ⟨[], 4096⟩ wire out t')
    (hi : conn.incoming = wire ++ rest) (hw : Willing conn.reads wire.length) :
    ∃ frames c', Received (Client.new conn) frames c' ∧
      frames.map (fun f => (f.kind, f.headerList)) = out.map (fun o => (some o.1, o.2)) ∧
      c'.conn.incoming = rest ∧ c'.responseTable.entries = t'.entries ∧
      c'.responseTable.maxTableSize = t'.max := by
  obtain ⟨gs, d', h1, h2, h3, h4⟩ :=
    server_stream h (Client.new conn) rest inv_default rfl hi hw
  exact ⟨gs, d', h1, h2, h3, congrArg Table.entries h4, congrArg Table.max h4⟩

theorem server_any_transport [Platform] {t t' : Table} {wire : Bytes}
    {out : List (UInt8 × List Field)} (h : ServerSends t wire out t') (d d' : Client) (rest : Bytes)
    (gs : List Frame) (ht : d.responseTable.Inv) (htab : d.responseTable.toRfc = t)
    (hi : d.conn.incoming = wire ++ rest) (hr : Received d gs d') (hl : gs.length ≤ out.length) :
    gs.map (fun g => (g.kind, g.headerList)) =
      (out.take gs.length).map (fun o => (some o.1, o.2)) := by
  induction out generalizing t wire d gs with
  | nil =>
      cases hr with
      | nil => rfl
      | cons => simp at hl
  | cons o out ih =>
      cases hr with
      | nil => rfl
      | cons _ d1 _ g gs hr1 hr2 =>
          obtain ⟨type, hs⟩ := o
          obtain ⟨flags, sid, payload, wire', f, t1, rfl, a1, a2, a3, a4, a5, a6, a7⟩ :=
            server_step h ht htab
          rw [List.append_assoc] at hi
          obtain ⟨rfl, b2, b3⟩ := received_step a1 a2 hi a3 hr1
          have := ih (b3 ▸ a7) d1 gs (b3 ▸ a6) rfl b2 hr2 (by simpa using hl)
          rw [List.length_cons, List.take_succ_cons, List.map_cons, List.map_cons, this, a4, a5]

/-- C85. Whatever the transport does: the frames returned by the first calls that return are the
first frames the server sent, with its headers. Missing: as in `C85_server_stream_partial`. -/
theorem C85_any_transport_partial [Platform] (conn : Conn) (wire rest : Bytes)
    (out : List (UInt8 × List Field)) (t' : Table) (h : ServerSends ⟨[], 4096⟩ wire out t')
    (hi : conn.incoming = wire ++ rest) (frames : List Frame) (c' : Client)
    (hr : Received (Client.new conn) frames c') (hl : frames.length ≤ out.length) :
    frames.map (fun f => (f.kind, f.headerList)) =
      (out.take frames.length).map (fun o => (some o.1, o.2)) :=
  server_any_transport h (Client.new conn) c' rest frames inv_default rfl hi hr hl

section Example

attribute [local instance] x86

/-- A response: SETTINGS, padded HEADERS that insert a header, HEADERS that refer to it, DATA. -/
example : ServerSends ⟨[], 4096⟩
    ([0, 0, 6, 4, 0, 0, 0, 0, 0, 0, 3, 0, 0, 0, 100] ++
      ([0, 0, 8, 1, 12, 0, 0, 0, 1, 1, 0x88, 0x40, 1, 98, 1, 50, 0] ++
      ([0, 0, 1, 1, 4, 0, 0, 0, 3, 0xbe] ++ ([0, 0, 2, 0, 1, 0, 0, 0, 3, 104, 105] ++ []))))
    [(4, []), (1, [(ascii ":status", ascii "200"), (ascii "b", ascii "2")]),
      (1, [(ascii "b", ascii "2")]), (0, [])] ⟨[(ascii "b", ascii "2")], 4096⟩ := by
  have e1 : frameOctets 4 0 (0 : UInt32).toNat [0, 3, 0, 0, 0, 100] =
    [0, 0, 6, 4, 0, 0, 0, 0, 0, 0, 3, 0, 0, 0, 100] := by decide
  have e2 : frameOctets 1 12 (1 : UInt32).toNat [1, 0x88, 0x40, 1, 98, 1, 50, 0] =
    [0, 0, 8, 1, 12, 0, 0, 0, 1, 1, 0x88, 0x40, 1, 98, 1, 50, 0] := by decide
  have e3 : frameOctets 1 4 (3 : UInt32).toNat [0xbe] = [0, 0, 1, 1, 4, 0, 0, 0, 3, 0xbe] := by decide
  have e4 : frameOctets 0 1 (3 : UInt32).toNat [104, 105] =
    [0, 0, 2, 0, 1, 0, 0, 0, 3, 104, 105] := by decide
  rw [← e1, ← e2, ← e3, ← e4]
  refine .other _ _ 4 0 0 _ _ _ (by decide) (by decide) (by decide)
    (.settings _ (by decide) (by decide)) (fun _ => ?_) ?_
  · intro settings h
    match settings, h with
    | [(id, v)], h =>
        have hid : be 2 id.toNat = [0, 3] := by
          simp only [settingsOctets, settingOctets, List.flatMap_cons, List.flatMap_nil,
            List.append_nil] at h
          have := congrArg (List.take 2) h
          rw [List.take_left' (by simp)] at this
          exact this.symm
        have h3 : id.toNat = 3 := by
          have := congrArg beValue hid
          rw [beValue_be, Nat.mod_eq_of_lt (by have := id.toNat_lt; omega)] at this
          exact this
        have : id ≠ 1 := fun h1 => by rw [h1] at h3; exact absurd h3 (by decide)
        simp [List.lookup, beq_eq_false_iff_ne.2 (Ne.symm this)]
    | [], h => simp [settingsOctets] at h
    | _ :: _ :: _, h =>
        have := congrArg List.length h
        simp [settingsOctets, settingOctets] at this
        omega
  refine .block _ ⟨[(ascii "b", ascii "2")], 4096⟩ _ 1 12 1 _ [0x88, 0x40, 1, 98, 1, 50] _
    [.indexed (ascii ":status", ascii "200"), .incremental (ascii "b", ascii "2")] _ (by decide)
    (by decide) (.headers (flags := 12) _ _ (by decide) (Content.padded (flags := 12) 1 [0x88, 0x40, 1, 98, 1, 50] [0]
      (by decide) (by decide))) ?_ ?_ ?_ ?_
  · refine .cons _ _ _ [0x40, 1, 98, 1, 50] _ _
      (.indexed _ _ _ 8 _ (by decide) (by decide) (by decide +kernel)) ?_
    refine .cons _ _ _ [] _ _ (.incremental _ _ _ _ (by decide) ?_) (.nil _)
    exact .newName _ [1, 98, 1, 50] [1, 50] [] _ _ (by decide)
      (.plain 1 _ [98] _ (by decide) (by decide)) (.plain 1 _ [50] _ (by decide) (by decide))
  · exact ⟨by decide, trivial⟩
  · intro item hi
    simp only [List.mem_cons, List.not_mem_nil, or_false] at hi
    rcases hi with rfl | rfl
    · trivial
    · exact ⟨Or.inl rfl, Or.inl rfl⟩
  refine .block _ ⟨[(ascii "b", ascii "2")], 4096⟩ _ 1 4 3 _ [0xbe] _
    [.indexed (ascii "b", ascii "2")] _ (by decide)
    (by decide) (.headers _ _ (by decide) (.plain _ (by decide))) ?_ trivial ?_ ?_
  · exact .cons _ _ _ [] _ _ (.indexed _ _ _ 62 _ (by decide) (by decide) (by decide)) (.nil _)
  · intro item hi
    simp only [List.mem_cons, List.not_mem_nil, or_false] at hi
    subst hi
    trivial
  exact .other _ _ 0 1 3 _ _ _ (by decide) (by decide) (by decide)
    (.data _ _ (.plain _ (by decide))) (fun h => absurd h (by decide)) (.nil _)

end Example

end Mh2c
