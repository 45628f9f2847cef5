/-
C122: the undefined behaviour of the client API, exactly.
-/
import Verif.Spec.Defined
import Verif.Props.Causes
import Verif.Props.Safety
import Verif.Props.Client
import Verif.Props.Loose
import Verif.Props.FrameRules

namespace Mh2c

open Rfc DynamicTable

/-! ## C122 -/

theorem updateDefined_iff {es : HeaderBlock} {t : DynamicTable} (ht : t.Inv)
    (he : ∀ e ∈ es, EntrySmall e) :
    (updateDynamicTable es t).1.Safe ↔ UpdateDefined t.maxTableSize es := by
  induction es generalizing t with
  | nil => exact ⟨fun _ => trivial, fun _ => trivial⟩
  | cons x xs ih =>
      obtain ⟨p, v⟩ := x
      have hx := he ⟨p, v⟩ (by simp)
      have ih' := fun (t : DynamicTable) ht => ih (t := t) ht (fun y hy => he y (by simp [hy]))
      unfold updateDynamicTable updateDynamicTableEntry
      cases p with
      | incrementalIndexing =>
          rw [if_pos rfl]
          cases v with
          | header h =>
              simp only [HeaderEntry.getHeader, Res.ok_bind, UpdateDefined]
              have hs : headerSize h < 2 ^ 63 := hx.1 h rfl
              by_cases hf : headerSize h ≤ t.maxTableSize
              · obtain ⟨t', e1, e2, e3⟩ := push_refines ht (h := h) hf
                rw [e1]
                have : t'.maxTableSize = t.maxTableSize := congrArg Table.max e3
                simp only
                rw [ih' t' e2, this]
                exact ⟨fun h => ⟨hf, h⟩, And.right⟩
              · rw [push_oversized ht.size (by have := ht.le; have := ht.max; omega) (by omega)]
                exact ⟨fun h => absurd h id, fun h => absurd h.1 hf⟩
          | maxSize n => exact ⟨fun _ => trivial, fun _ => trivial⟩
      | sizeUpdate =>
          rw [if_neg (by simp), if_pos rfl]
          cases v with
          | header h => exact ⟨fun _ => trivial, fun _ => trivial⟩
          | maxSize n =>
              obtain ⟨t', e1, e2, e3⟩ := updateTableSize_refines ht (hx.2 n rfl)
              have : t'.maxTableSize = n := congrArg Table.max e3
              simp only [HeaderEntry.getMaxSize, Res.ok_bind, e1, UpdateDefined]
              rw [ih' t' e2, this]
      | indexed => cases v <;> exact ih' t ht
      | withoutIndexing => cases v <;> exact ih' t ht
      | neverIndexed => cases v <;> exact ih' t ht

theorem frameDefined_iff [Platform] {fh : FrameHeader} {raw : Bytes} {t : DynamicTable}
    (hr : raw.length < 2 ^ 24) (ht : t.Inv) (hm : t.maxTableSize ≤ 2 ^ 32) :
    (processTable fh raw t).1.Safe ↔ FrameDefined t fh.type fh.flags raw := by
  have hup : ∀ f, buildFrame fh raw t = .ok f →
      ((processTable fh raw t).1.Safe ↔ (updateDynamicTableFrame f t).1.Safe) := by
    intro f hf
    unfold processTable
    rw [hf]
    simp only
    rcases updateDynamicTableFrame f t with ⟨_ | _ | _ | _, t'⟩ <;> exact Iff.rfl
  have hno : ¬ (buildFrame fh raw t).Safe → ¬ (processTable fh raw t).1.Safe := by
    intro hn
    unfold processTable
    cases hb : buildFrame fh raw t with
    | ok f => rw [hb] at hn; exact absurd trivial hn
    | throw e => rw [hb] at hn; exact absurd trivial hn
    | ub k => exact id
    | diverge => exact id
  have hthrow : ∀ e, buildFrame fh raw t = .throw e → (processTable fh raw t).1.Safe := by
    intro e he
    unfold processTable
    rw [he]; trivial
  have small := fun {e : HeaderEntry} (h : DecodedEntry raw.length t e) => (decoded_small hr ht hm h).1
  -- what happens once the block is known
  have hread : ∀ block es f, CarriesBlock fh.flags fh.type raw block →
      decodeHeaderBlock block t = .ok es → buildFrame fh raw t = .ok f → fh.type ∈ [1, 5, 9] →
      ((processTable fh raw t).1.Safe ↔ UpdateDefined t.maxTableSize es) := by
    intro block es f hc hd hf ht'
    rw [hup f hf, updateFrame_built (built_of_ok hf)]
    cases built_of_ok hf with
    | headers h' g hg =>
        rw [h'] at hc
        have := headers_block hc hg
        rw [hd] at this
        obtain rfl := Res.ok.inj this
        exact updateDefined_iff ht fun e he => small ((headers_entries hg).2 e he)
    | rawHeaders h' e hg =>
        rw [h'] at hc
        exact absurd hg (headers_block_ok hc hd e)
    | pushPromise h' g hg =>
        rw [h'] at hc
        have := pushPromise_block hc hg
        rw [hd] at this
        obtain rfl := Res.ok.inj this
        exact updateDefined_iff ht fun e he => small ((pushPromise_entries hg).2 e he)
    | continuation h' g hg =>
        rw [h'] at hc
        have := continuation_block hc hg
        rw [hd] at this
        obtain rfl := Res.ok.inj this
        exact updateDefined_iff ht fun e he => small ((continuation_entries hg).2 e he)
    | data h' => rw [h'] at ht'; exact absurd ht' (by decide)
    | _ =>
        rename_i h' _ _
        rw [h'] at ht'
        exact absurd ht' (by decide)
  by_cases hb : fh.type ∈ [1, 5, 9]
  · have h4 : fh.type ≠ 4 := by intro h; rw [h] at hb; exact absurd hb (by decide)
    have hsafe := build_blocks_safe fh raw t hb
    constructor
    · intro hs
      have hbs : (buildFrame fh raw t).Safe := by_contra fun hn => hno hn hs
      obtain ⟨block, hc, hd⟩ := hsafe.1 hbs
      cases hdb : decodeHeaderBlock block t with
      | ok es =>
          obtain ⟨f, hf, -⟩ := legal_accepted fh raw t (.block _ _ block hc) fun _ => ⟨block, hc, es, hdb⟩
          have hu := (hread block es f hc hdb hf hb).1 hs
          have hra := (C121_accepts block t es).1 hdb
          exact ⟨fun h => absurd h h4, fun _ => ⟨block, es, hc, hra, hu⟩,
            fun _ => ⟨block, hc, Or.inl ⟨es, hra, hu⟩⟩⟩
      | throw e =>
          have hrj := (C121_rejects block t e).1 hdb
          refine ⟨fun h => absurd h h4, fun h1 => ?_, fun _ => ⟨block, hc, Or.inr ⟨e, hrj⟩⟩⟩
          exfalso
          rw [h1] at hc
          obtain ⟨g, -, eg⟩ := headersOfRaw_carries t hc
          rw [hdb] at eg
          have hf := buildFrame_headers fh raw t h1
          rw [buildHeadersFrame, eg] at hf
          rw [hup _ hf, updateFrame_built (built_of_ok hf)] at hs
          exact hs
      | ub k => rw [hdb] at hd; exact absurd hd id
      | diverge => rw [hdb] at hd; exact absurd hd id
    · rintro ⟨-, h1, h59⟩
      have hcases : fh.type = 1 ∨ fh.type = 5 ∨ fh.type = 9 := by
        simpa using hb
      have good : ∀ block es, CarriesBlock fh.flags fh.type raw block → ReadsAs t.entries block es →
          UpdateDefined t.maxTableSize es → (processTable fh raw t).1.Safe := by
        intro block es hc hra hu
        have hdb := (C121_accepts block t es).2 hra
        obtain ⟨f, hf, -⟩ := legal_accepted fh raw t (.block _ _ block hc) fun _ => ⟨block, hc, es, hdb⟩
        exact (hread block es f hc hdb hf hb).2 hu
      rcases hcases with h' | h'
      · obtain ⟨block, es, hc, hra, hu⟩ := h1 h'
        exact good block es hc hra hu
      · obtain ⟨block, hc, ⟨es, hra, hu⟩ | ⟨e, hrj⟩⟩ := h59 h'
        · exact good block es hc hra hu
        · have hdb := (C121_rejects block t e).2 hrj
          have hbs := hsafe.2 ⟨block, hc, by rw [hdb]; trivial⟩
          cases hbf : buildFrame fh raw t with
          | ok f =>
              exfalso
              cases built_of_ok hbf with
              | headers h g hg => rw [h] at h'; exact absurd h' (by decide)
              | rawHeaders h e hg => rw [h] at h'; exact absurd h' (by decide)
              | pushPromise h g hg =>
                  rw [h] at hc
                  have := pushPromise_block hc hg
                  rw [hdb] at this; cases this
              | continuation h g hg =>
                  rw [h] at hc
                  have := continuation_block hc hg
                  rw [hdb] at this; cases this
              | data h => rw [h] at h'; exact absurd h' (by decide)
              | _ =>
                  rename_i h _ _
                  rw [h] at h'
                  exact absurd h' (by decide)
          | throw e => exact hthrow e hbf
          | ub k => rw [hbf] at hbs; exact absurd hbs id
          | diverge => rw [hbf] at hbs; exact absurd hbs id
  · have hn1 : fh.type ≠ 1 := fun h => hb (by rw [h]; decide)
    have hn5 : fh.type ≠ 5 := fun h => hb (by rw [h]; decide)
    have hn9 : fh.type ≠ 9 := fun h => hb (by rw [h]; decide)
    have e : FrameDefined t fh.type fh.flags raw ↔ (fh.type = 4 → raw.length % 6 = 0) :=
      ⟨And.left, fun h => ⟨h, fun h => absurd h hn1, fun h => absurd h (by simp [hn5, hn9])⟩⟩
    rw [e]
    by_cases h4 : fh.type = 4
    · have hs := C80_build_settings fh raw t h4
      constructor
      · intro h _
        exact hs.1 (by_contra fun hn => hno hn h)
      · intro h
        have hbs := hs.2 (h h4)
        cases hbf : buildFrame fh raw t with
        | ok f =>
            rw [hup f hbf, updateFrame_built (built_of_ok hbf)]
            cases built_of_ok hbf with
            | settings h' p hp =>
                simp only [SettingsFrame.new]
                cases p.lookup 1 with
                | none => trivial
                | some size =>
                    obtain ⟨t', e1, -, -⟩ := updateTableSize_refines ht (n := size.toNat)
                      (by have := size.toNat_lt; omega)
                    simp only [e1]
                    trivial
            | rawHeaders h' => exact absurd h' hn1
            | headers h' => exact absurd h' hn1
            | pushPromise h' => exact absurd h' hn5
            | continuation h' => exact absurd h' hn9
            | _ => trivial
        | throw e => exact hthrow e hbf
        | ub k => rw [hbf] at hbs; exact absurd hbs id
        | diverge => rw [hbf] at hbs; exact absurd hbs id
    · constructor
      · intro _ h; exact absurd h h4
      · intro _
        have hbs := C80_build_fixed fh raw t (by
          simp only [List.mem_cons, List.not_mem_nil, or_false, not_or]
          exact ⟨hn1, h4, hn5, hn9⟩)
        cases hbf : buildFrame fh raw t with
        | ok f =>
            rw [hup f hbf, updateFrame_built (built_of_ok hbf)]
            cases built_of_ok hbf with
            | settings h' => exact absurd h' h4
            | rawHeaders h' => exact absurd h' hn1
            | headers h' => exact absurd h' hn1
            | pushPromise h' => exact absurd h' hn5
            | continuation h' => exact absurd h' hn9
            | _ => trivial
        | throw e => exact hthrow e hbf
        | ub k => rw [hbf] at hbs; exact absurd hbs id
        | diverge => rw [hbf] at hbs; exact absurd hbs id

theorem frameThrows_iff [Platform] {fh : FrameHeader} {raw : Bytes} {t : DynamicTable} {e : Exc} :
    buildFrame fh raw t = .throw e ↔ FrameThrows t fh.type fh.flags raw e := by
  have blocks : ∀ block, CarriesBlock fh.flags fh.type raw block → (fh.type = 5 ∨ fh.type = 9) →
      (buildFrame fh raw t = .throw e ↔ decodeHeaderBlock block t = .throw e) := by
    intro block hc ht
    rcases ht with ht | ht
    · rw [ht] at hc
      rw [buildFrame_pushPromise _ _ _ ht, bind_pure_throw]
      unfold PushPromiseFrame.ofRaw
      cases hc with
      | pushPromise _ pr _ hc hl =>
          obtain ⟨pad, he⟩ := extractPadding_content hc
          have hlen : 4 ≤ (pr ++ block).length := by rw [List.length_append]; omega
          rw [he, Res.ok_bind]
          simp only
          rw [readAt_ok (by omega), Res.ok_bind, bytes2integral_ok (by omega) (by omega), Res.ok_bind,
            eraseFirst_drop (by omega), Res.ok_bind, ← hl, List.drop_left, bind_pure_throw]
    · rw [ht] at hc
      cases hc
      rw [buildFrame_continuation _ _ _ ht, bind_pure_throw]
      unfold ContinuationFrame.ofRaw
      rw [bind_pure_throw]
  have ne : ∀ {a b : UInt8}, a.toNat ≠ b.toNat → a ≠ b := fun h h' => h (by rw [h'])
  constructor
  · intro h
    by_cases ht : fh.type = 5 ∨ fh.type = 9
    · refine Or.inr (Or.inr ⟨ht, ?_⟩)
      obtain ⟨block, hc, -⟩ := (build_blocks_safe fh raw t (by rcases ht with h | h <;> rw [h] <;> decide)).1
        (by rw [h]; trivial)
      exact ⟨block, hc, (C121_rejects block t e).1 ((blocks block hc ht).1 h)⟩
    · rcases buildFrame_throw h with ⟨h1, h2 | ⟨h2, -⟩⟩ | ⟨h1, h2 | ⟨h2, -⟩⟩
      · exact Or.inl ⟨h1, h2⟩
      · exact absurd h2 ht
      · exact Or.inr (Or.inl ⟨h1, h2⟩)
      · exact absurd h2 ht
  · rintro (⟨rfl, ⟨h1, h2⟩ | ⟨h1, h2⟩ | ⟨h1, h2⟩ | ⟨h1, h2⟩⟩ | ⟨rfl, h⟩ | ⟨ht, block, hc, hr⟩)
    · exact (C49_priority fh h1 raw t).1 h2
    · exact (C49_rst_stream fh h1 raw t).1 h2
    · exact (C49_goaway fh h1 raw t).1 h2
    · exact (C49_window_update fh h1 raw t).1 h2
    · exact buildFrame_unknown _ _ _ h
    · exact (blocks block hc ht).2 ((C121_rejects block t e).2 hr)

theorem serialize_safe [Platform] (f : Frame) :
    f.serialize.Safe ↔ ∀ g, f = .goaway g → g.payload.reserved.toNat ≤ 1 := by
  cases f with
  | goaway g =>
      have e : (Frame.goaway g).serialize = g.serialize := rfl
      rw [e]
      unfold GoawayFrame.serialize shlInt
      by_cases h : g.payload.reserved.toNat ≤ 1
      · rw [if_pos (by omega)]
        exact ⟨fun _ g' hg => by injection hg with hg; subst hg; exact h, fun _ => trivial⟩
      · rw [if_neg (by omega)]
        exact ⟨fun h => absurd h id, fun hh => absurd (hh g rfl) h⟩
  | _ => exact ⟨fun _ _ h => (by cases h), fun _ => trivial⟩

theorem op_defined [Platform] {c : Client} {op : Op} (hop : op.Small) (i1 : c.requestTable.Inv)
    (i2 : c.responseTable.Inv) (i3 : c.responseTable.maxTableSize ≤ 2 ^ 32) :
    (op.run c).1.Safe ↔ OpDefined c op := by
  have write : ∀ data, (c.sendRawData data).1.Safe := by
    intro data
    obtain ⟨w, -, h | ⟨k, -, h⟩⟩ := writeLoop_spec c.conn.writes c.conn.sent data <;>
    · unfold Client.sendRawData Conn.write
      rw [h]
      trivial
  cases op with
  | sendPreface => exact ⟨fun _ => trivial, fun _ => write _⟩
  | sendRaw data => exact ⟨fun _ => trivial, fun _ => write _⟩
  | receiveRaw n =>
      refine ⟨fun _ => trivial, fun _ => ?_⟩
      have e : ((Op.receiveRaw n).run c).1 = (do let _ ← (c.receiveRawData n).1; return ()) := rfl
      rw [e]
      unfold Client.receiveRawData Conn.read
      obtain ⟨r, -, ⟨-, -, h⟩ | ⟨k, -, -, h⟩⟩ := readLoop_spec c.conn.reads c.conn.incoming n <;>
      · rw [h]; trivial
  | sendFrame f =>
      have e : ((Op.sendFrame f).run c).1 = (c.sendFrame f).1 := rfl
      rw [e]
      show _ ↔ ∀ g, f = .goaway g → g.payload.reserved.toNat ≤ 1
      rw [← serialize_safe]
      unfold Client.sendFrame
      cases f.serialize with
      | ok raw => exact ⟨fun _ => trivial, fun _ => write raw⟩
      | throw e => exact Iff.rfl
      | ub k => exact Iff.rfl
      | diverge => exact Iff.rfl
  | receiveFrame =>
      have e : ((Op.receiveFrame).run c).1 = (do let _ ← c.receiveFrame.1; return ()) := rfl
      rw [e, safe_map]
      show _ ↔ (∃ part, part.length < frameLength c.conn.incoming ∧
        c.conn.incoming = part ++ c.receiveFrame.2.conn.incoming) ∨ ∃ type flags,
        c.conn.incoming[3]? = some type ∧ c.conn.incoming[4]? = some flags ∧
        FrameDefined c.responseTable type flags (payloadAt c.conn.incoming)
      rw [← C120_runtime_error]
      have hlt : (payloadAt c.conn.incoming).length < 2 ^ 24 := by
        have := take_beValue_lt (raw := c.conn.incoming) 3
        unfold payloadAt announced
        rw [List.length_take]
        omega
      obtain ⟨reads', -, ⟨k, -, -, h'⟩ | ⟨fh, g1, -, g3, -, h'⟩⟩ := receiveFrame_cases c
      · rw [h']
        exact ⟨fun _ => Or.inl rfl, fun _ => trivial⟩
      · have hf := header_flags g1
        obtain ⟨type, ht⟩ : ∃ type, c.conn.incoming[3]? = some type :=
          ⟨_, List.getElem?_eq_getElem (by omega)⟩
        have hty := header_type g1 ht
        have key : c.receiveFrame.1.Safe ↔
            FrameDefined c.responseTable fh.type fh.flags (payloadAt c.conn.incoming) := by
          rw [h', processFrame_eq]
          exact frameDefined_iff hlt i2 i3
        rw [key]
        constructor
        · intro hd
          exact Or.inr ⟨type, fh.flags, ht, hf, hty ▸ hd⟩
        · rintro (hd | ⟨type', flags', h1, h2, h3⟩)
          · rw [← key, hd]; trivial
          · rw [hf] at h2
            rw [ht] at h1
            obtain rfl := Option.some.inj h1
            obtain rfl := Option.some.inj h2
            rw [hty]
            exact h3
  | updateRequestBlock b => exact updateDefined_iff i1 hop
  | updateRequestSize n =>
      refine ⟨fun _ => trivial, fun _ => ?_⟩
      obtain ⟨t, ht, -, -⟩ := updateTableSize_refines i1 (show n < 2 ^ 63 from hop)
      show (c.updateRequestTableSize n).1.Safe
      unfold Client.updateRequestTableSize
      rw [ht]
      trivial

/-- C122. After every history of calls with arguments that fit the machine, whatever the transport
delivered and however it failed: the next call of the API has defined behaviour - it returns or
throws - exactly in the cases of `OpDefined`. -/
theorem C122_call [Platform] (conn : Conn) (ops : List Op) (c : Client)
    (hsmall : ∀ op ∈ ops, op.Small) (h : History (Client.new conn) ops c) (op : Op)
    (hop : op.Small) : (op.run c).1.Safe ↔ OpDefined c op := by
  obtain ⟨i1, i2, i3⟩ := history_inv h hsmall inv_default inv_default
    (by show 4096 ≤ _; norm_num)
  exact op_defined hop i1 i2 i3

/-- C122, the exceptions: in every state, `receive_frame` throws exactly if the transport delivers less
than the frame (`runtime_error`), or if it delivers the frame and this is one of `FrameThrows`. -/
theorem C122_throws [Platform] (c : Client) (e : Exc) :
    c.receiveFrame.1 = .throw e ↔
      (e = .runtimeError ∧ ∃ part, part.length < frameLength c.conn.incoming ∧
        c.conn.incoming = part ++ c.receiveFrame.2.conn.incoming) ∨
      (frameLength c.conn.incoming ≤ c.conn.incoming.length ∧
        c.receiveFrame.2.conn.incoming = c.conn.incoming.drop (frameLength c.conn.incoming) ∧
        ∃ type flags, c.conn.incoming[3]? = some type ∧ c.conn.incoming[4]? = some flags ∧
          FrameThrows c.responseTable type flags (payloadAt c.conn.incoming) e) := by
  have h0 := C120_runtime_error c
  obtain ⟨reads', -, ⟨k, k1, k2, h'⟩ | ⟨fh, g1, g2, g3, -, h'⟩⟩ := receiveFrame_cases c
  · rw [← h0]
    constructor
    · intro h
      rw [h'] at h
      obtain rfl := Res.throw.inj h
      exact Or.inl ⟨rfl, by rw [h']⟩
    · rintro (⟨rfl, h⟩ | ⟨h1, h2, -⟩)
      · exact h
      · exfalso
        obtain ⟨part, p1, p2⟩ := h0.1 (by rw [h'])
        have l1 := congrArg List.length p2
        have l2 := congrArg List.length h2
        simp only [List.length_append, List.length_drop] at l1 l2
        omega
  · rw [← h0]
    have hf := header_flags g1
    obtain ⟨type, ht⟩ : ∃ type, c.conn.incoming[3]? = some type :=
      ⟨_, List.getElem?_eq_getElem (by omega)⟩
    have hty := header_type g1 ht
    have key : c.receiveFrame.1 = .throw e ↔
        FrameThrows c.responseTable fh.type fh.flags (payloadAt c.conn.incoming) e := by
      rw [h', processFrame_eq, ← frameThrows_iff]
      constructor
      · intro h; exact (processTable_throw h).2
      · intro h
        show (processTable fh (payloadAt c.conn.incoming) c.responseTable).1 = _
        unfold processTable
        rw [h]
    have hin : c.receiveFrame.2.conn.incoming = c.conn.incoming.drop (frameLength c.conn.incoming) := by
      rw [h', processFrame_eq]
      rfl
    constructor
    · intro h
      refine Or.inr ⟨?_, hin, type, fh.flags, ht, hf, hty ▸ key.1 h⟩
      exact g3
    · rintro (⟨rfl, h⟩ | ⟨-, -, type', flags', h1, h2, h3⟩)
      · exact h
      · rw [hf] at h2
        rw [ht] at h1
        obtain rfl := Option.some.inj h1
        obtain rfl := Option.some.inj h2
        exact key.2 (hty ▸ h3)

/-- Defined and undefined calls of a fresh client: a SETTINGS frame of six octets and one of five, a
HEADERS frame with an index of the static table and one with an index beyond it, a GOAWAY frame. -/
def oneFrame (stream : Bytes) : Client := Client.new ⟨stream, [], [9, 9], []⟩

attribute [local instance] x86 in
example : (Op.receiveFrame.run (oneFrame ([0, 0, 6, 4, 0, 0, 0, 0, 0] ++ [0, 1, 0, 0, 0, 9]))).1.Safe ∧
    ¬ (Op.receiveFrame.run (oneFrame ([0, 0, 5, 4, 0, 0, 0, 0, 0] ++ [0, 1, 0, 0, 0]))).1.Safe ∧
    (Op.receiveFrame.run (oneFrame [0, 0, 1, 1, 4, 0, 0, 0, 1, 0x88])).1.Safe ∧
    ¬ (Op.receiveFrame.run (oneFrame [0, 0, 1, 1, 4, 0, 0, 0, 1, 0xbe])).1.Safe ∧
    (Op.receiveFrame.run (oneFrame [0, 0, 1, 9, 4, 0, 0, 0, 1, 0xbe])).1.Safe ∧
    (Op.receiveFrame.run (oneFrame [0, 0, 2, 1, 4])).1.Safe := by decide +kernel

attribute [local instance] x86 in
/-- A frame of a type that is not in RFC 7540, and the frame cut short. -/
example : (oneFrame [0, 0, 1, 10, 0, 0, 0, 0, 1, 7]).receiveFrame.1 = .throw .outOfRange ∧
    (oneFrame [0, 0, 1, 10, 0, 0, 0, 0]).receiveFrame.1 = .throw .runtimeError :=
  ⟨(C122_throws _ _).2 (Or.inr ⟨by decide, by decide +kernel, 10, 0, rfl, rfl,
      Or.inr (Or.inl ⟨rfl, by decide⟩)⟩),
    (C122_throws _ _).2 (Or.inl ⟨rfl, [0, 0, 1, 10, 0, 0, 0, 0], by decide, by decide +kernel⟩)⟩

attribute [local instance] x86 in
example : OpDefined (oneFrame []) (.sendFrame (.goaway (GoawayFrame.new ⟨1, 0, 0, []⟩))) ∧
    ¬ OpDefined (oneFrame []) (.sendFrame (.goaway (GoawayFrame.new ⟨2, 0, 0, []⟩))) := by
  refine ⟨fun g hg => ?_, fun h => ?_⟩
  · injection hg with hg; subst hg; decide
  · exact absurd (h _ rfl) (by decide)

/-- C122, whole sessions: a sequence of calls has defined behaviour from beginning to end exactly if
every call of it is one of `OpDefined` in the state it is made in. -/
theorem C122_session [Platform] (conn : Conn) (ops : List Op) (hsmall : ∀ op ∈ ops, op.Small) :
    (∃ c, History (Client.new conn) ops c) ↔ SessionDefined (Client.new conn) ops := by
  have key : ∀ (ops : List Op) (c : Client), (∀ op ∈ ops, op.Small) → c.requestTable.Inv →
      c.responseTable.Inv → c.responseTable.maxTableSize ≤ 2 ^ 32 →
      ((∃ c', History c ops c') ↔ SessionDefined c ops) := by
    intro ops
    induction ops with
    | nil => intro c _ _ _ _; exact ⟨fun _ => trivial, fun _ => ⟨c, .nil c⟩⟩
    | cons op ops ih =>
        intro c hall i1 i2 i3
        have hop := hall op (by simp)
        obtain ⟨j1, j2, j3⟩ := history_step hop i1 i2 i3
        have ih' := ih (op.run c).2 (fun o ho => hall o (by simp [ho])) j1 j2 j3
        constructor
        · rintro ⟨c', h⟩
          cases h with
          | cons _ _ _ _ hs h => exact ⟨(op_defined hop i1 i2 i3).1 hs, ih'.1 ⟨c', h⟩⟩
        · rintro ⟨h1, h2⟩
          obtain ⟨c', h⟩ := ih'.2 h2
          exact ⟨c', .cons _ _ _ _ ((op_defined hop i1 i2 i3).2 h1) h⟩
  exact key ops _ hsmall inv_default inv_default (by show 4096 ≤ _; norm_num)

attribute [local instance] x86 in
/-- A session that is defined from beginning to end: the preface, a HEADERS frame from the server, a
header for the table. With a header for the table that is larger than the table, it is not. -/
example :
    (∃ c, History (oneFrame [0, 0, 1, 1, 4, 0, 0, 0, 1, 0x88])
      [.sendPreface, .receiveFrame, .updateRequestBlock [⟨.incrementalIndexing, .header ([97], [98])⟩]] c) ∧
    ¬ ∃ c, History (oneFrame [0, 0, 1, 1, 4, 0, 0, 0, 1, 0x88])
      [.sendPreface, .updateRequestSize 33,
        .updateRequestBlock [⟨.incrementalIndexing, .header ([97], [98])⟩]] c := by
  refine ⟨⟨_, .cons _ _ _ _ (by decide +kernel) (.cons _ _ _ _ (by decide +kernel)
    (.cons _ _ _ _ (by decide +kernel) (.nil _)))⟩, ?_⟩
  unfold oneFrame
  rw [C122_session _ _ (by simp [Op.Small, EntrySmall])]
  rintro ⟨-, -, h, -⟩
  exact absurd h.1 (by decide +kernel)

end Mh2c
