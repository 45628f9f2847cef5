/-
C97, C126: what is understood when the HPACK tables of the two ends differ, and how they are brought
together again.
-/
import Verif.Spec.Diverged
import Verif.Props.Reject
import Verif.Props.ServerMeans
import Verif.Props.TableApi

namespace Mh2c

open Rfc DynamicTable

theorem named_fold {items : List Item} {t : Table} (ht : ∀ f ∈ t.entries, f.1 ≠ [])
    (hn : ∀ item ∈ items, ∀ f, item = .incremental f → f.1 ≠ []) :
    ∀ f ∈ (items.foldl Item.apply t).entries, f.1 ≠ [] := by
  induction items generalizing t with
  | nil => exact ht
  | cons item items ih =>
      refine ih ?_ (fun s hs => hn s (List.mem_cons_of_mem _ hs))
      have h0 := hn _ List.mem_cons_self
      intro f hf
      cases item with
      | incremental g =>
          have hf : f ∈ takeFit t.max (g :: t.entries) := hf
          rcases List.mem_cons.1 ((takeFit_prefix _ _).subset hf) with rfl | hf
          · exact h0 _ rfl
          · exact ht f hf
      | sizeUpdate n =>
          have hf : f ∈ takeFit n t.entries := hf
          exact ht f ((takeFit_prefix _ _).subset hf)
      | indexed _ => exact ht f hf
      | withoutIndexing _ => exact ht f hf
      | neverIndexed _ => exact ht f hf

/-- As `server_means`, for a client whose table need not be the server's. -/
theorem server_diverged [Platform] {t t' : Table} {wire : Bytes} {out : List MeantFrame}
    (h : ServerMeans t wire out t') (d : Client) (rest : Bytes) (ht : d.responseTable.Inv)
    (hroom : Room d.responseTable.toRfc out) (hn : NamedTable d.responseTable)
    (hi : d.conn.incoming = wire ++ rest) (hw : Willing d.conn.reads wire.length) :
    ((∃ gs d', Received d gs d' ∧ gs.map (fun g => (g.kind, g.headerList)) =
        out.map (fun o => (some o.type, o.headers))) ↔ Understood d.responseTable.toRfc out) ∧
    (Understood d.responseTable.toRfc out → ∃ gs d', Received d gs d' ∧
      gs.map (fun g => (g.kind, g.headerList)) = out.map (fun o => (some o.type, o.headers)) ∧
      d'.conn.incoming = rest ∧
      d'.responseTable.toRfc = out.foldl (fun mine m => m.after mine) d.responseTable.toRfc) := by
  induction h generalizing d with
  | nil t =>
      exact ⟨⟨fun _ => trivial, fun _ => ⟨[], d, .nil d, rfl⟩⟩, fun _ => ⟨[], d, .nil d, rfl, hi, rfl⟩⟩
  | block t t1 t' type flags sid payload block wire' steps out hs hl hc hb hf hns htol _ ih =>
      rw [List.append_assoc] at hi
      rw [List.length_append] at hw
      obtain ⟨m, hm⟩ : ∃ m, m = (⟨type, t, steps⟩ : MeantFrame) := ⟨_, rfl⟩
      have hms : m.steps = steps := by rw [hm]
      have hex := C32_exact_partial d.responseTable hn d.responseTable.maxTableSize t block steps t1
        hb htol
      have good : (∀ s ∈ steps, Kept d.responseTable.toRfc s) →
          ∃ f d1, d.receiveFrame = (.ok f, d1) ∧ d1.conn.incoming = wire' ++ rest ∧
            d1.responseTable.Inv ∧ d1.responseTable.toRfc = m.after d.responseTable.toRfc ∧
            Willing d1.conn.reads wire'.length ∧ f.kind = some type ∧
            f.headerList = fields (steps.map (·.item)) := by
        intro hk
        have hd := kept_decodes (max := d.responseTable.maxTableSize) hn hb htol hk
        obtain ⟨table1, u1, u2, u3⟩ := update_refines ht hroom.1
        obtain ⟨f, p1, p2, p3⟩ := process_block
          (fh := ⟨castToFhLength payload.length, type, flags, 0, sid⟩) hc hd u1
        obtain ⟨d1, e1, e2, e3, e4⟩ := receive_front hl hs hi p1 hw
        refine ⟨f, d1, e1, e2, e3 ▸ u2, ?_, e4, p2, ?_⟩
        · rw [e3, u3, MeantFrame.after, hms]
        · rw [p3]
          obtain ⟨es, k1, k2⟩ := hex.2 hk
          rw [hd] at k1
          rw [Res.ok.inj k1]
          exact k2
      have named : ∀ d1 : Client, d1.responseTable.toRfc = m.after d.responseTable.toRfc →
          NamedTable d1.responseTable := by
        intro d1 e
        have := named_fold (items := steps.map (·.item)) (t := d.responseTable.toRfc) hn
          (by
            intro item hi f hf
            obtain ⟨s, hs1, rfl⟩ := List.mem_map.1 hi
            exact hns s hs1 f hf)
        rw [MeantFrame.after, hms] at e
        rw [← e] at this
        exact this
      have fwd : Understood d.responseTable.toRfc ((⟨type, t, steps⟩ : MeantFrame) :: out) →
          ∃ gs d', Received d gs d' ∧ gs.map (fun g => (g.kind, g.headerList)) =
            ((⟨type, t, steps⟩ : MeantFrame) :: out).map (fun o => (some o.type, o.headers)) ∧
            d'.conn.incoming = rest ∧ d'.responseTable.toRfc =
              ((⟨type, t, steps⟩ : MeantFrame) :: out).foldl (fun mine m => m.after mine)
                d.responseTable.toRfc := by
        intro hk
        rw [← hm] at hk hroom ⊢
        obtain ⟨f, d1, e1, e2, e3, e4, e5, e6, e7⟩ := good (hms ▸ hk.1)
        obtain ⟨gs, d', r1, r2, r3, r4⟩ :=
          (ih d1 e3 (by rw [e4]; exact hroom.2) (named d1 e4) e2 e5).2 (by rw [e4]; exact hk.2)
        refine ⟨f :: gs, d', .cons _ _ _ _ _ e1 r1, ?_, r3, ?_⟩
        · rw [List.map_cons, List.map_cons, r2, e6, e7, MeantFrame.headers, hms, hm]
        · rw [r4, e4, List.foldl_cons]
      refine ⟨⟨?_, fun hk => ?_⟩, fwd⟩
      · rintro ⟨gs, d', hr, hg⟩
        cases hr with
        | nil => cases hg
        | cons _ d1 _ g gs hr1 hr2 =>
            rw [List.map_cons, List.map_cons] at hg
            injection hg with hg1 hg2
            injection hg1 with hg3 hg4
            have hbf := received_process hl hs hi hr1
            obtain ⟨es, k1, k2⟩ := built_headerList
              (fh := ⟨castToFhLength payload.length, type, flags, 0, sid⟩) hc hbf hg3
            have hk : ∀ s ∈ steps, Kept d.responseTable.toRfc s :=
              hex.1 ⟨es, k1, by rw [← k2, hg4]; rfl⟩
            obtain ⟨f, d2, e1, e2, e3, e4, e5, -, -⟩ := good hk
            rw [hr1] at e1
            obtain rfl := (Prod.mk.inj e1).2
            have := (ih d1 e3 (by rw [e4, hm]; exact hroom.2) (named d1 e4) e2 e5).1.1
              ⟨gs, d', hr2, hg2⟩
            rw [e4, hm] at this
            exact ⟨hk, this⟩
      · obtain ⟨gs, d', r1, r2, -, -⟩ := fwd hk
        exact ⟨gs, d', r1, r2⟩
  | other t t' type flags sid payload wire' out hs hl hb hc h4 _ ih =>
      rw [List.append_assoc] at hi
      rw [List.length_append] at hw
      obtain ⟨f, p1, p2, p3⟩ := process_other
        (fh := ⟨castToFhLength payload.length, type, flags, 0, sid⟩) d.responseTable hb hc h4
      obtain ⟨d1, e1, e2, e3, e4⟩ := receive_front hl hs hi p1 hw
      obtain ⟨i1, i2⟩ := ih d1 (e3 ▸ ht) (e3 ▸ hroom.2) (e3 ▸ hn) e2 e4
      have hk0 : ∀ s ∈ (⟨type, t, []⟩ : MeantFrame).steps, Kept d.responseTable.toRfc s :=
        fun s hs => (by cases hs)
      rw [e3] at i1 i2
      have fwd : Understood d.responseTable.toRfc ((⟨type, t, []⟩ : MeantFrame) :: out) →
          ∃ gs d', Received d gs d' ∧ gs.map (fun g => (g.kind, g.headerList)) =
            ((⟨type, t, []⟩ : MeantFrame) :: out).map (fun o => (some o.type, o.headers)) ∧
            d'.conn.incoming = rest ∧ d'.responseTable.toRfc =
              ((⟨type, t, []⟩ : MeantFrame) :: out).foldl (fun mine m => m.after mine)
                d.responseTable.toRfc := by
        intro hk
        obtain ⟨gs, d', r1, r2, r3, r4⟩ := i2 hk.2
        refine ⟨f :: gs, d', .cons _ _ _ _ _ e1 r1, ?_, r3, r4⟩
        rw [List.map_cons, List.map_cons, r2, p2, p3]
        rfl
      refine ⟨⟨?_, fun hk => ?_⟩, fwd⟩
      · rintro ⟨gs, d', hr, hg⟩
        cases hr with
        | nil => cases hg
        | cons _ d2 _ g gs hr1 hr2 =>
            rw [List.map_cons, List.map_cons] at hg
            injection hg with hg1 hg2
            rw [hr1] at e1
            obtain rfl := (Prod.mk.inj e1).2
            exact ⟨hk0, i1.1 ⟨gs, d', hr2, hg2⟩⟩
      · obtain ⟨gs, d', r1, r2, -, -⟩ := fwd hk
        exact ⟨gs, d', r1, r2⟩

/-- A reader that has the server's table. -/
theorem understood_self [Platform] {t t' : Table} {wire : Bytes} {out : List MeantFrame}
    (h : ServerMeans t wire out t') : (Understood t out ↔ ∀ o ∈ out, o.Kept) ∧ Room t out ∧
      out.foldl (fun mine m => m.after mine) t = t' := by
  induction h with
  | nil t => exact ⟨⟨fun _ o ho => (by cases ho), fun _ => trivial⟩, trivial, rfl⟩
  | block t t1 t' type flags sid payload block wire' steps out hs hl hc hb hf hns htol _ ih =>
      obtain ⟨i1, i2, i3⟩ := ih
      have ha : (⟨type, t, steps⟩ : MeantFrame).after t = t1 := short_table hb
      refine ⟨?_, ⟨hf, by rw [ha]; exact i2⟩, by rw [List.foldl_cons, ha]; exact i3⟩
      rw [List.forall_mem_cons, ← i1, Understood, ha]
      rfl
  | other t t' type flags sid payload wire' out hs hl hb hc h4 _ ih =>
      obtain ⟨i1, i2, i3⟩ := ih
      refine ⟨?_, ⟨trivial, i2⟩, i3⟩
      rw [List.forall_mem_cons, ← i1]
      exact ⟨fun h => ⟨fun s hs => (by cases hs), h.2⟩, fun h => ⟨fun s hs => (by cases hs), h.2⟩⟩

theorem takeFit_zero (es : List Header) : takeFit 0 es = [] := by
  cases es with
  | nil => rfl
  | cons e es =>
      unfold takeFit
      rw [if_neg]
      unfold Rfc.entrySize
      omega

/-- After a size update to 0 it does not matter what the table was. -/
theorem reset_fold (items : List Item) (t1 t2 : Table) :
    (Item.sizeUpdate 0 :: items).foldl Item.apply t1 =
      (Item.sizeUpdate 0 :: items).foldl Item.apply t2 := by
  rw [List.foldl_cons, List.foldl_cons]
  have h : ∀ t, Item.apply t (.sizeUpdate 0) = ⟨[], 0⟩ := fun t => by
    show Table.setMax t 0 = _
    unfold Table.setMax
    rw [takeFit_zero]
  rw [h, h]

/-! ## C126 -/

/-- C126. The tables of the two ends may differ, for whatever reason: the server has `t`, the client
what it has. Of everything the server sends then, each frame is received with its type and exactly the
headers the server meant if and only if every reference denotes, in the client's table at the start of
the frame, what the server means by it in its own. -/
theorem C126_understood [Platform] (c : Client) (t t' : Table) (wire rest : Bytes)
    (out : List MeantFrame) (ha : Accounted c.responseTable)
    (hm : c.responseTable.maxTableSize < 2 ^ 63) (hn : NamedTable c.responseTable)
    (h : ServerMeans t wire out t') (hroom : Room c.responseTable.toRfc out)
    (hi : c.conn.incoming = wire ++ rest) (hw : Willing c.conn.reads wire.length) :
    (∃ frames c', Received c frames c' ∧
      frames.map (fun f => (f.kind, f.headerList)) = out.map (fun o => (some o.type, o.headers))) ↔
    Understood c.responseTable.toRfc out :=
  (server_diverged h c rest ⟨ha.1, ha.2, hm⟩ hroom hn hi hw).1

/-- C126, the way back. Whatever the two tables are: once the server sends a header block that begins
with a change of the table size to 0, the ends agree again. If the references in this one block denote
the same in both tables, then everything after it is understood exactly as on a connection whose
tables never differed (C85), and in the end the tables are equal. -/
theorem C126_response_repaired [Platform] (c : Client) (t t' : Table) (wire rest : Bytes)
    (m : MeantFrame) (out : List MeantFrame) (items : List Item) (ha : Accounted c.responseTable)
    (hm : c.responseTable.maxTableSize < 2 ^ 63) (hn : NamedTable c.responseTable)
    (h : ServerMeans t wire (m :: out) t')
    (hreset : m.steps.map (·.item) = .sizeUpdate 0 :: items)
    (hi : c.conn.incoming = wire ++ rest) (hw : Willing c.conn.reads wire.length) :
    ((∃ frames c', Received c frames c' ∧ frames.map (fun f => (f.kind, f.headerList)) =
        (m :: out).map (fun o => (some o.type, o.headers))) ↔
      (∀ s ∈ m.steps, Kept c.responseTable.toRfc s) ∧ ∀ o ∈ out, o.Kept) ∧
    ((∀ s ∈ m.steps, Kept c.responseTable.toRfc s) → (∀ o ∈ out, o.Kept) →
      ∃ frames c', Received c frames c' ∧ frames.map (fun f => (f.kind, f.headerList)) =
        (m :: out).map (fun o => (some o.type, o.headers)) ∧ c'.conn.incoming = rest ∧
        c'.responseTable.entries = t'.entries ∧ c'.responseTable.maxTableSize = t'.max) := by
  obtain ⟨k1, k2, k3⟩ := understood_self h
  have hafter : m.after c.responseTable.toRfc = m.after t := by
    unfold MeantFrame.after
    rw [hreset]
    exact reset_fold _ _ _
  have hroom : Room c.responseTable.toRfc (m :: out) := by
    refine ⟨?_, by rw [hafter]; exact k2.2⟩
    have := k2.1
    rw [hreset] at this ⊢
    exact this
  have hu : Understood (m.after t) out ↔ ∀ o ∈ out, o.Kept := by
    cases h with
    | block _ t1 _ type flags sid payload block rest' steps _ hs hl hc hb hf hns htol hr =>
        have hta : (⟨type, t, steps⟩ : MeantFrame).after t = t1 := short_table hb
        rw [hta]
        exact (understood_self hr).1
    | other => cases hreset
  have hall : Understood c.responseTable.toRfc (m :: out) ↔
      (∀ s ∈ m.steps, Kept c.responseTable.toRfc s) ∧ ∀ o ∈ out, o.Kept := by
    rw [Understood, hafter, hu]
  obtain ⟨d1, d2⟩ := server_diverged h c rest ⟨ha.1, ha.2, hm⟩ hroom hn hi hw
  refine ⟨d1.trans hall, fun g1 g2 => ?_⟩
  obtain ⟨frames, c', r1, r2, r3, r4⟩ := d2 (hall.2 ⟨g1, g2⟩)
  rw [List.foldl_cons, hafter] at r4
  rw [List.foldl_cons] at k3
  rw [k3] at r4
  exact ⟨frames, c', r1, r2, r3, congrArg Table.entries r4, congrArg Table.max r4⟩

theorem no_hits {table : DynamicTable} {block : HeaderBlock}
    (good : GoodBlock table (⟨.sizeUpdate, .maxSize 0⟩ :: block)) :
    ∀ e ∈ (⟨.sizeUpdate, .maxSize 0⟩ : HeaderEntry) :: block, ¬ HitsDynamic table e := by
  intro e he hh
  rcases List.mem_cons.1 he with rfl | he
  · obtain ⟨h, h1, -⟩ := hh
    cases h1
  · refine (List.pairwise_cons.1 good.order).1 e he (.inl ⟨0, rfl, ?_⟩) hh
    obtain ⟨h, -, h2, -⟩ := hh
    cases hes : table.entries with
    | nil => rw [hes] at h2; cases h2
    | cons x xs =>
        unfold Rfc.tableSize Rfc.entrySize
        simp only [List.map_cons, List.sum_cons]
        omega

theorem inTables_default {table : DynamicTable} {e : HeaderEntry} {h : Header}
    (he : e.entry = .header h) (hd : ¬ HitsDynamic table e) :
    InTables h table ↔ InTables h .default := by
  constructor
  · rintro (hs | hm)
    · exact .inl hs
    · by_cases hs : h.2 ≠ [] ∧ ∃ i, staticTableEntries.lookup i = some h
      · exact .inl hs
      · exact absurd ⟨h, he, hm, hs⟩ hd
  · rintro (hs | hm)
    · exact .inl hs
    · cases hm

theorem sentAs_default {table : DynamicTable} {e : HeaderEntry} {item : Item}
    (hd : ¬ HitsDynamic table e) : SentAs table e item ↔ SentAs .default e item := by
  constructor
  · intro h
    cases h with
    | size n => exact .size n
    | hit p h hp hh => exact .hit p h hp ((inTables_default rfl hd).1 hh)
    | incremental h hh => exact .incremental h (fun g => hh ((inTables_default rfl hd).2 g))
    | withoutIndexing h hh => exact .withoutIndexing h (fun g => hh ((inTables_default rfl hd).2 g))
    | neverIndexed h hh => exact .neverIndexed h (fun g => hh ((inTables_default rfl hd).2 g))
  · intro h
    cases h with
    | size n => exact .size n
    | hit p h hp hh => exact .hit p h hp ((inTables_default rfl hd).2 hh)
    | incremental h hh => exact .incremental h (fun g => hh ((inTables_default rfl hd).1 g))
    | withoutIndexing h hh => exact .withoutIndexing h (fun g => hh ((inTables_default rfl hd).1 g))
    | neverIndexed h hh => exact .neverIndexed h (fun g => hh ((inTables_default rfl hd).1 g))

theorem forall₂_of_mem {α β : Type} {R S : α → β → Prop} {xs : List α} {ys : List β}
    (h : List.Forall₂ R xs ys) (hi : ∀ x ∈ xs, ∀ y, R x y → S x y) : List.Forall₂ S xs ys := by
  induction h with
  | nil => exact .nil
  | @cons x y xs ys h1 _ ih =>
      exact .cons (hi x List.mem_cons_self y h1) (ih fun x hx => hi x (List.mem_cons_of_mem _ hx))

/-- C126, the same for requests. Whatever the request table and the server's table are: a header block
that begins with a change of the table size to 0, and is good for the request table otherwise, is
decoded as the given headers, and when it has been reported the two tables are in a state that they
reach together on a fresh connection, so that everything said of those (C31, C33, C91) applies. -/
theorem C126_request_repaired (table : DynamicTable) (ht : TableHistory table) (peer : Table)
    (block : HeaderBlock) (mode : EncodeMode)
    (good : GoodBlock table (⟨.sizeUpdate, .maxSize 0⟩ :: block)) :
    ∃ bytes items peer' table',
      encodeHeaderBlock (⟨.sizeUpdate, .maxSize 0⟩ :: block) mode table = .ok bytes ∧
      BlockDecodes peer bytes items peer' ∧ fields items = headersOf block ∧
      updateDynamicTable (⟨.sizeUpdate, .maxSize 0⟩ :: block) table = (.ok (), table') ∧
      Session table' peer' := by
  have hd := no_hits good
  obtain ⟨blk, hb⟩ : ∃ b, b = (⟨.sizeUpdate, .maxSize 0⟩ : HeaderEntry) :: block := ⟨_, rfl⟩
  obtain ⟨bytes0, items, -, -, -, hs, -, -⟩ := C31_peer_decodes_partial table mode _
    good.typed good.indexed good.name good.order
  rw [← hb] at good hd hs ⊢
  obtain ⟨bytes, g1, g2⟩ := block_rfc (mode := mode) hs good.name good.order peer (.inr hd)
  obtain ⟨table', u1, u2, u3⟩ := update_refines ht.inv (good.fits items hs)
  have hs' : List.Forall₂ (SentAs .default) blk items :=
    forall₂_of_mem hs fun e he _ h => (sentAs_default (hd e he)).1 h
  obtain ⟨is, his⟩ : ∃ is, items = .sizeUpdate 0 :: is := by
    rw [hb] at hs
    cases hs with
    | cons h1 _ => cases h1; exact ⟨_, rfl⟩
  have goodD : GoodBlock .default blk := by
    refine ⟨good.typed, fun e he hp h hh => (inTables_default hh (hd e he)).1 (good.indexed e he hp h hh),
      fun e he hp h hh hI => good.incremental e he hp h hh ((inTables_default hh (hd e he)).2 hI),
      fun e he h hh hI => good.name e he h hh fun g => hI ((inTables_default hh (hd e he)).1 g), ?_, ?_⟩
    · refine List.pairwise_of_forall (fun a b => ?_)
      rintro - ⟨h, -, hm, -⟩
      cases hm
    · intro items' h'
      have h2 : List.Forall₂ (SentAs table) blk items' :=
        forall₂_of_mem h' fun e he _ h => (sentAs_default (hd e he)).2 h
      have := good.fits items' h2
      rw [hb] at h2
      cases h2 with
      | cons h1 _ => cases h1; exact this
  obtain ⟨bytes', items', peer', tableD, e1, e2, -, e4, e5⟩ :=
    C33_session_continues_partial .default ⟨[], 4096⟩ .start blk mode goodD
  obtain ⟨bytesD, f1, f2⟩ := block_rfc (mode := mode) hs' goodD.name goodD.order ⟨[], 4096⟩
    (.inl (List.prefix_refl _))
  rw [e1] at f1
  obtain rfl := Res.ok.inj f1
  obtain ⟨rfl, hpeer⟩ := BlockDecodes.unique e2 f2
  obtain ⟨hi, hr⟩ := e5.inv
  have htab : table' = tableD := by
    have h1 : table'.toRfc = tableD.toRfc := by
      rw [hr, hpeer, u3, his]
      exact reset_fold _ _ _
    obtain ⟨es, n, mx⟩ := table'
    obtain ⟨es', n', mx'⟩ := tableD
    have h2 : es = es' := congrArg Table.entries h1
    have h3 : mx = mx' := congrArg Table.max h1
    have h4 := u2.1
    have h5 := hi.1
    simp only at h4 h5
    rw [h2, ← h5] at h4
    rw [h2, h3, h4]
  refine ⟨bytes, items', _, table', g1, g2, ?_, ?_, ?_⟩
  · rw [fields_of_sentAs hs, hb]
    rfl
  · rw [update_sentAs hs good.incremental]
    exact u1
  · rw [htab]
    have : items'.foldl Item.apply peer = peer' := by
      rw [hpeer, his]
      exact reset_fold _ _ _
    rw [this]
    exact e5

/-! ## C97 -/

/-- C97, exactly. A frame was rejected; the server, which does not know, has the table `t` after it.
The program goes on: of everything the server sends from there on, each frame is received with its type
and exactly the headers the server meant if and only if every reference in it denotes, in the table the
client had before the rejected frame (and has since changed with what it received), what the server
means by it. Missing (false of the code): other references. -/
theorem C97_exact_partial [Platform] (c : Client) (e : Exc) (frame wire rest : Bytes) (t t' : Table)
    (out : List MeantFrame) (ha : Accounted c.responseTable)
    (hm : c.responseTable.maxTableSize < 2 ^ 63) (hn : NamedTable c.responseTable)
    (hi : c.conn.incoming = frame ++ (wire ++ rest))
    (hl : frame.length = frameLength c.conn.incoming)
    (hw : Willing c.conn.reads frame.length) (h : c.receiveFrame.1 = .throw e)
    (hs : ServerMeans t wire out t') (hroom : Room c.responseTable.toRfc out)
    (hw' : Willing c.receiveFrame.2.conn.reads wire.length) :
    (∃ frames c', Received c.receiveFrame.2 frames c' ∧
      frames.map (fun f => (f.kind, f.headerList)) = out.map (fun o => (some o.type, o.headers))) ↔
    Understood c.responseTable.toRfc out := by
  obtain ⟨reads, -, hc⟩ := C97_skipped_partial c e frame (wire ++ rest) hi hl hw h
  have h1 : c.receiveFrame.2.responseTable = c.responseTable := by rw [hc]
  have h2 : c.receiveFrame.2.conn.incoming = wire ++ rest := by rw [hc]
  have := C126_understood c.receiveFrame.2 t t' wire rest out (h1 ▸ ha) (h1 ▸ hm) (h1 ▸ hn) hs
    (h1 ▸ hroom) h2 hw'
  rw [h1] at this
  exact this

section Example

attribute [local instance] x86

/-- A response that sets the table size to 0 and to 4096 again and then inserts `k: v`. -/
theorem reset_steps (t : Table) :
    ShortBlock t [0x20, 0x3f, 0xe1, 0x1f, 0x40, 1, 107, 1, 118]
      [⟨t, [0x20, 0x3f, 0xe1, 0x1f, 0x40, 1, 107, 1, 118], .sizeUpdate 0⟩,
       ⟨⟨[], 0⟩, [0x3f, 0xe1, 0x1f, 0x40, 1, 107, 1, 118], .sizeUpdate 4096⟩,
       ⟨⟨[], 4096⟩, [0x40, 1, 107, 1, 118], .incremental ([107], [118])⟩]
      ⟨[([107], [118])], 4096⟩ := by
  have h0 : Item.apply t (.sizeUpdate 0) = ⟨[], 0⟩ := by
    show Table.setMax t 0 = _
    unfold Table.setMax
    rw [takeFit_zero]
  refine .cons _ _ _ [0x3f, 0xe1, 0x1f, 0x40, 1, 107, 1, 118] _ _
    (.sizeUpdate _ _ _ 0 (by decide) (by decide)) ?_
  rw [h0]
  exact .cons _ _ _ [0x40, 1, 107, 1, 118] _ _
    (.sizeUpdate _ _ _ 4096 (by decide) (by decide)) (insertion_steps ⟨[], 4096⟩ rfl rfl).1

/-- The hypotheses of `C126_response_repaired`: the server's table is any, the client has `x: y`. -/
example (t : Table) : ∃ m out t', ServerMeans t
    (frameOctets 1 4 (1 : UInt32).toNat [0x20, 0x3f, 0xe1, 0x1f, 0x40, 1, 107, 1, 118] ++
      (frameOctets 1 5 (3 : UInt32).toNat [0xbe] ++ [])) (m :: out) t' ∧
    m.steps.map (·.item) = [.sizeUpdate 0, .sizeUpdate 4096, .incremental ([107], [118])] ∧
    (m :: out).map (fun o => (o.type, o.headers)) = [(1, [([107], [118])]), (1, [([107], [118])])] ∧
    (∀ s ∈ m.steps, Kept ⟨[([120], [121])], 4096⟩ s) ∧ ∀ o ∈ out, o.Kept := by
  have h1 := reset_steps t
  obtain ⟨-, h2⟩ := insertion_steps ⟨[], 4096⟩ rfl rfl
  refine ⟨_, _, _, .block _ _ _ 1 4 1 _ _ _ _ _ (by decide) (by decide)
    (.headers _ _ (by decide) (.plain _ (by decide))) h1 ⟨by decide, by decide, by decide, trivial⟩ ?_ ?_
    (.block _ _ _ 1 5 3 _ _ _ _ _ (by decide) (by decide)
      (.headers _ _ (by decide) (.plain _ (by decide))) h2 trivial ?_ ?_ (.nil _)), rfl, rfl, ?_, ?_⟩
  · intro s hs f hf
    simp only [List.mem_cons, List.not_mem_nil, or_false] at hs
    rcases hs with rfl | rfl | rfl
    · cases hf
    · cases hf
    · obtain rfl := Item.incremental.inj hf
      decide
  · intro s hs
    simp only [List.mem_cons, List.not_mem_nil, or_false] at hs
    rcases hs with rfl | rfl | rfl
    · trivial
    · trivial
    · exact ⟨.inl rfl, .inl rfl⟩
  · intro s hs f hf
    obtain rfl := List.mem_singleton.1 hs
    cases hf
  · intro s hs
    obtain rfl := List.mem_singleton.1 hs
    trivial
  · intro s hs
    simp only [List.mem_cons, List.not_mem_nil, or_false] at hs
    rcases hs with rfl | rfl | rfl
    · exact ⟨fun i hi => (by cases hi), fun i hi h0 => (by cases hi)⟩
    · exact ⟨fun i hi => (by cases hi), fun i hi h0 => (by cases hi)⟩
    · exact ⟨fun i hi => (by cases hi), fun i hi h0 => absurd (Option.some.inj hi).symm h0⟩
  · intro o ho s hs
    obtain rfl := List.mem_singleton.1 ho
    obtain rfl := List.mem_singleton.1 hs
    refine ⟨fun i hi => ?_, fun i hi => (by cases hi)⟩
    obtain rfl := Option.some.inj hi
    decide

/-- Both sides of `C126_understood`: the client has `x: y` where the server has `k: v`, so the
reference 62 is not understood; a literal is. -/
example : ¬ Understood ⟨[([120], [121])], 4096⟩
      [⟨1, ⟨[([107], [118])], 4096⟩, [⟨⟨[([107], [118])], 4096⟩, [0xbe], .indexed ([107], [118])⟩]⟩] ∧
    Understood ⟨[([120], [121])], 4096⟩
      [⟨1, ⟨[([107], [118])], 4096⟩,
        [⟨⟨[([107], [118])], 4096⟩, [0x40, 1, 107, 1, 118], .incremental ([107], [118])⟩]⟩] := by
  constructor
  · intro h
    exact absurd ((h.1 _ List.mem_cons_self).1 62 (by decide)) (by decide)
  · refine ⟨fun s hs => ?_, trivial⟩
    obtain rfl := List.mem_singleton.1 hs
    exact ⟨fun i hi => (by cases hi), fun i hi h0 => absurd (Option.some.inj hi).symm h0⟩

/-- The hypotheses of `C126_request_repaired`: the client's table holds `a: 1`, the server's is any. -/
example : TableHistory ⟨[(bstr "a", bstr "1")], 34, 4096⟩ ∧
    GoodBlock ⟨[(bstr "a", bstr "1")], 34, 4096⟩ [⟨.sizeUpdate, .maxSize 0⟩,
      ⟨.sizeUpdate, .maxSize 4096⟩, ⟨.incrementalIndexing, .header (bstr "b", bstr "2")⟩] := by
  have hb : ¬ InTables (bstr "b", bstr "2") ⟨[(bstr "a", bstr "1")], 34, 4096⟩ :=
    hitIndex_none.1 (by decide +kernel)
  refine ⟨.push (.new 4096) _ (bstr "a", bstr "1") (.new 4096 (by decide)) (by decide)
    (by decide +kernel), ?_⟩
  constructor
  · intro e he
    simp only [List.mem_cons, List.not_mem_nil, or_false] at he
    rcases he with rfl | rfl | rfl
    · exact .inl ⟨rfl, _, rfl⟩
    · exact .inl ⟨rfl, _, rfl⟩
    · exact .inr ⟨by decide, _, rfl⟩
  · intro e he hp h hh
    simp only [List.mem_cons, List.not_mem_nil, or_false] at he
    rcases he with rfl | rfl | rfl <;> cases hp
  · intro e he hp h hh
    simp only [List.mem_cons, List.not_mem_nil, or_false] at he
    rcases he with rfl | rfl | rfl
    · cases hp
    · cases hp
    · injection hh with hh; subst hh; exact hb
  · intro e he h hh _
    simp only [List.mem_cons, List.not_mem_nil, or_false] at he
    rcases he with rfl | rfl | rfl
    · cases hh
    · cases hh
    · injection hh with hh; subst hh; decide
  · have h2 : ¬ HitsDynamic ⟨[(bstr "a", bstr "1")], 34, 4096⟩
        ⟨.incrementalIndexing, .header (bstr "b", bstr "2")⟩ := by
      rintro ⟨h, hh, hm, -⟩
      injection hh with hh
      subst hh
      exact absurd hm (by decide)
    have h1 : ¬ HitsDynamic ⟨[(bstr "a", bstr "1")], 34, 4096⟩ ⟨.sizeUpdate, .maxSize 4096⟩ := by
      rintro ⟨h, hh, -⟩
      cases hh
    refine .cons ?_ (.cons ?_ (.cons (by simp) .nil))
    · intro e he _
      simp only [List.mem_cons, List.not_mem_nil, or_false] at he
      rcases he with rfl | rfl
      · exact h1
      · exact h2
    · intro e he _
      obtain rfl := List.mem_singleton.1 he
      exact h2
  · intro items hi
    cases hi with
    | cons h1 h =>
        cases h1
        cases h with
        | cons h2 h =>
            cases h2
            cases h with
            | cons h3 h =>
                cases h
                cases h3 with
                | hit _ _ _ hh => exact absurd hh hb
                | incremental _ _ => exact ⟨by decide, by decide, by decide, trivial⟩

/-- The hypotheses of `C97_exact_partial` on the server of `C97_rejected_block_violated`: the reference
in the response after the rejected promise is not understood. -/
example :
    let frame := frameOctets 5 4 1 ([0, 0, 0, 2] ++ ([0x40, 1, 107, 1, 118] ++ [0xbf]))
    let c := receiver (frame ++ frameOctets 1 4 1 [0xbe])
    let t : Table := ⟨[([107], [118]), ([120], [121])], 4096⟩
    c.receiveFrame.1 = .throw .outOfRange ∧ frame.length = frameLength c.conn.incoming ∧
    Willing c.conn.reads frame.length ∧ Accounted c.responseTable ∧ NamedTable c.responseTable ∧
    c.responseTable.maxTableSize = 4096 ∧ Willing c.receiveFrame.2.conn.reads 10 ∧
    ∃ out, ServerMeans t (frameOctets 1 4 (1 : UInt32).toNat [0xbe] ++ []) out t ∧
      Room c.responseTable.toRfc out ∧ ¬ Understood c.responseTable.toRfc out := by
  refine ⟨by decide +kernel, by decide +kernel, by decide +kernel, ⟨rfl, by decide⟩, ?_,
    by decide +kernel, by decide +kernel, [⟨1, ⟨[([107], [118]), ([120], [121])], 4096⟩,
      [⟨⟨[([107], [118]), ([120], [121])], 4096⟩, [0xbe], .indexed ([107], [118])⟩]⟩], ?_,
    ⟨trivial, trivial⟩, ?_⟩
  · intro h hm
    obtain rfl := List.mem_singleton.1 hm
    decide
  · refine .block _ _ _ 1 4 1 _ _ _ _ _ (by decide) (by decide)
      (.headers _ _ (by decide) (.plain _ (by decide)))
      (.cons _ _ _ [] _ _ (.indexed _ _ _ 62 _ (by decide) (by decide) (by decide)) (.nil _))
      trivial ?_ ?_ (.nil _)
    · intro s hs f hf
      obtain rfl := List.mem_singleton.1 hs
      cases hf
    · intro s hs
      obtain rfl := List.mem_singleton.1 hs
      trivial
  · intro h
    exact absurd ((h.1 _ List.mem_cons_self).1 62 (by decide)) (by decide)

end Example

end Mh2c
