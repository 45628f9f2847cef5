/-
C123: sending a received header list on over another connection.
-/
import Verif.Props.LooseFrames
import Verif.Props.HeaderRfc
import Verif.Props.OneEntry
import Verif.Props.Makeable
import Verif.Spec.Causes

namespace Mh2c

open Rfc

/-! ## C123 -/

theorem received_items [Platform] {c : Client} {f : HeadersFrame}
    (h : c.receiveFrame.1 = .ok (.headers f)) :
    ∃ block got, CarriesBlock f.header.flags 1 (payloadAt c.conn.incoming) block ∧
      LooseItems c.responseTable.entries block got [] ∧ f.headerBlock = got.map entryOf := by
  obtain ⟨hl, fh, h1, h2, h3, h4, h5, h6⟩ := returned_built h
  have hb := built_of_ok h1
  have ht : (Frame.headers f).header.type = 1 := by
    have hb := hb
    cases hb with
    | headers ht g hg => rw [hb.type]; exact ht
  have hc := C100_payload_partial c _ h (by rw [ht]; intro h; cases h) (by rw [ht]; intro h; cases h)
  rw [ht] at hc
  have e : (Frame.headers f).getPayload = .headers f.headerBlock := rfl
  rw [e] at hc
  cases hc with
  | headers _ block _ hc hr =>
      obtain ⟨got, g1, g2⟩ := hr
      exact ⟨block, got, hc, g1, g2⟩

theorem sent_payload [Platform] {block : HeaderBlock} {mode : EncodeMode}
    {t : DynamicTable} {bytes : Bytes} (h : encodeHeaderBlock block mode t = .ok bytes)
    (sid : UInt32) :
    ∃ g octets, HeadersFrame.new 4 sid block mode t = .ok g ∧ g.serialize = .ok octets ∧
      octets.drop 9 = bytes := by
  unfold HeadersFrame.new HeadersFrame.constructEncodedPayload
  have h1 : isFlagSet 4 flagPadded = false := by decide +kernel
  have h2 : isFlagSet 4 flagPriority = false := by decide +kernel
  simp only [h1, h2, h, Res.ok_bind, Bool.false_eq_true, if_false, List.nil_append, List.append_nil]
  refine ⟨_, _, rfl, rfl, ?_⟩
  rw [List.drop_append_of_le_length (by simp)]
  simp

theorem headersOf_map (got : List Item) : headersOf (got.map entryOf) = fields got := headersOf_entryOf got

/-- C123, the part that holds. A client receives a HEADERS frame and its header list is put, as
`get_payload` gives it, into a HEADERS frame for another connection with request table `t`. Then a
conforming server that holds this table reads the same header list, and the headers that came as never
indexed are sent as never indexed, except those that are in a table. Missing (false, see below): headers
that came as an index and are not in the tables of the other connection, never indexed headers that are;
and the limits of C31 (the mistyped name, references after an insertion in the same block). -/
theorem C123_forward_partial [Platform] (c : Client) (f : HeadersFrame)
    (h : c.receiveFrame.1 = .ok (.headers f)) (t : DynamicTable) (mode : EncodeMode) (sid : UInt32)
    (hidx : ∀ k, (⟨.indexed, .header k⟩ : HeaderEntry) ∈ f.headerBlock → InTables k t)
    (hname : ∀ e ∈ f.headerBlock, ∀ k, e.entry = .header k → ¬ InTables k t →
      k.1 ≠ bstr "accept-control-allow-origin")
    (hpair : f.headerBlock.Pairwise fun a b => ChangesTable t a → ¬ HitsDynamic t b) :
    ∃ block got g octets sent t',
      CarriesBlock f.header.flags 1 (payloadAt c.conn.incoming) block ∧
      LooseItems c.responseTable.entries block got [] ∧
      HeadersFrame.new 4 sid f.headerBlock mode t = .ok g ∧ g.serialize = .ok octets ∧
      BlockDecodes ⟨t.entries, t.maxTableSize⟩ (octets.drop 9) sent t' ∧
      fields sent = fields got ∧
      ∀ (i : Nat) (k : Header), got[i]? = some (Item.neverIndexed k) →
        (sent[i]? = some (Item.neverIndexed k) ↔ ¬ InTables k t) := by
  obtain ⟨block, got, hc, hl, he⟩ := received_items h
  have hwell : ∀ e ∈ f.headerBlock, WellTyped e := by
    rw [he]
    intro e hm
    obtain ⟨item, -, rfl⟩ := List.mem_map.1 hm
    cases item with
    | sizeUpdate n => exact Or.inl ⟨rfl, n, rfl⟩
    | _ k => exact Or.inr ⟨nofun, k, rfl⟩
  obtain ⟨bytes, sent, t', h1, h2, h3, h4, -⟩ := C31_peer_decodes_partial t mode f.headerBlock hwell
    (by
      rintro ⟨p, v⟩ hm hp k hk
      simp only at hp hk
      subst hp hk
      exact hidx k hm) hname hpair
  obtain ⟨g, octets, g1, g2, g3⟩ := sent_payload h1 sid
  refine ⟨block, got, g, octets, sent, t', hc, hl, g1, g2, by rw [g3]; exact h2, ?_, ?_⟩
  · rw [h4, he, headersOf_map]
  · intro i k hi
    have hf : f.headerBlock[i]? = some ⟨.neverIndexed, .header k⟩ := by
      rw [he, List.getElem?_map, hi]; rfl
    obtain ⟨hlen, hall⟩ := List.forall₂_iff_get.1 h3
    have hlt : i < f.headerBlock.length := (List.getElem?_eq_some_iff.1 hf).1
    have hrel := hall i hlt (hlen ▸ hlt)
    have e1 : f.headerBlock.get ⟨i, hlt⟩ = ⟨.neverIndexed, .header k⟩ := by
      rw [List.get_eq_getElem]; exact (List.getElem?_eq_some_iff.1 hf).2
    rw [e1] at hrel
    rw [List.getElem?_eq_getElem (hlen ▸ hlt)]
    rw [List.get_eq_getElem] at hrel
    generalize sent[i] = x at hrel
    cases hrel with
    | hit _ _ _ hh => exact ⟨fun h => by simp at h, fun hn => absurd hh hn⟩
    | neverIndexed _ hh => exact ⟨fun _ => hh, fun _ => rfl⟩

/-- C123, exactly, for a block of one header: the server behind the other connection reads the header
if and only if it is in the tables there, or did not come as an index and does not have the mistyped
name. Missing: as in `C123_forward_partial`. -/
theorem C123_one_header_partial [Platform] (c : Client) (f : HeadersFrame)
    (h : c.receiveFrame.1 = .ok (.headers f)) (p : HeaderPrefix) (k : Header)
    (hf : f.headerBlock = [⟨p, .header k⟩]) (t : DynamicTable) (mode : EncodeMode) (sid : UInt32) :
    ∃ block item g octets, CarriesBlock f.header.flags 1 (payloadAt c.conn.incoming) block ∧
      LooseItems c.responseTable.entries block [item] [] ∧
      HeadersFrame.new 4 sid f.headerBlock mode t = .ok g ∧ g.serialize = .ok octets ∧
      ((∃ sent t', BlockDecodes ⟨t.entries, t.maxTableSize⟩ (octets.drop 9) sent t' ∧
          fields sent = [k]) ↔
        InTables k t ∨
          (item ≠ .indexed k ∧ k.1 ≠ bstr "accept-control-allow-origin")) := by
  obtain ⟨block, got, hc, hl, he⟩ := received_items h
  rw [hf] at he
  obtain ⟨item, rfl, hi⟩ : ∃ item, got = [item] ∧ entryOf item = ⟨p, .header k⟩ := by
    obtain ⟨item, h1, h2⟩ := List.map_eq_singleton_iff.1 he.symm
    exact ⟨item, h1, h2⟩
  have hp : p ≠ .sizeUpdate ∧ (item = .indexed k ↔ p = .indexed) := by
    cases item <;> cases hi <;> simp
  obtain ⟨b, hb, -⟩ := C27_well_typed ⟨p, .header k⟩ mode t (Or.inr ⟨hp.1, k, rfl⟩)
  have hbl : encodeHeaderBlock f.headerBlock mode t = .ok b := by
    rw [hf, encodeHeaderBlock, hb]
    show Res.ok (b ++ []) = _
    rw [List.append_nil]
  obtain ⟨g, octets, g1, g2, g3⟩ := sent_payload hbl sid
  refine ⟨block, item, g, octets, hc, hl, g1, g2, ?_⟩
  rw [g3]
  have key := C31_one_entry_partial t mode ⟨p, .header k⟩ (Or.inr ⟨hp.1, k, rfl⟩) b (hf ▸ hbl)
  have e : headersOf [⟨p, .header k⟩] = [k] := rfl
  rw [e] at key
  rw [key, Ne.eq_def item, hp.2]
  constructor
  · intro h; exact h k rfl
  · intro h k' hk
    injection hk with hk
    subst hk
    exact h

/-- C123, exactly, for blocks of any length: the server behind the other connection reads the header
list that was received if and only if every entry has a representation there (`SentAs`: those that came
as an index are in the tables), no literal has the mistyped name, and every header that is sent as a
position in the dynamic table is at that position when the server comes to it. Missing (false of the
code): the blocks where this is not so. (`hempty`: see `C31_exact_partial`.) -/
theorem C123_exact_partial [Platform] (c : Client) (f : HeadersFrame)
    (h : c.receiveFrame.1 = .ok (.headers f)) (t : DynamicTable) (mode : EncodeMode) (sid : UInt32)
    (hempty : ∀ k, ⟨.indexed, .header k⟩ ∈ f.headerBlock → ¬ InTables k t → k.2 ≠ [] ∨ mode = .huffman) :
    ∃ block got g octets, CarriesBlock f.header.flags 1 (payloadAt c.conn.incoming) block ∧
      LooseItems c.responseTable.entries block got [] ∧
      HeadersFrame.new 4 sid f.headerBlock mode t = .ok g ∧ g.serialize = .ok octets ∧
      ((∃ sent t', BlockDecodes ⟨t.entries, t.maxTableSize⟩ (octets.drop 9) sent t' ∧
          fields sent = fields got) ↔
        ∃ items, List.Forall₂ (SentAs t) (got.map entryOf) items ∧
          (∀ k ∈ fields got, ¬ InTables k t → k.1 ≠ bstr "accept-control-allow-origin") ∧
          ∀ (i : Nat) (x : Item) (k : Header), got[i]? = some x → x.field? = some k →
            HitsDynamic t (entryOf x) →
            ((items.take i).foldl Item.apply ⟨t.entries, t.maxTableSize⟩).entries[
              t.entries.idxOf k]? = some k) := by
  obtain ⟨block, got, hc, hl, he⟩ := received_items h
  obtain ⟨bytes, hbl⟩ : ∃ bytes, encodeHeaderBlock f.headerBlock mode t = .ok bytes := by
    rw [he]
    clear hl he
    induction got with
    | nil => exact ⟨[], rfl⟩
    | cons x xs ih =>
        obtain ⟨bs, hbs⟩ := ih
        obtain ⟨b, hb, -⟩ := C27_well_typed (entryOf x) mode t (by
          cases x with
          | sizeUpdate n => exact Or.inl ⟨rfl, n, rfl⟩
          | _ k => exact Or.inr ⟨nofun, k, rfl⟩)
        refine ⟨b ++ bs, ?_⟩
        rw [List.map_cons, encodeHeaderBlock, hb, hbs]
        rfl
  obtain ⟨g, octets, g1, g2, g3⟩ := sent_payload hbl sid
  refine ⟨block, got, g, octets, hc, hl, g1, g2, ?_⟩
  have key := C31_exact_partial t mode f.headerBlock hempty bytes hbl
  have hentry : ∀ (x : Item) (k : Header), x.field? = some k ↔ (entryOf x).entry = .header k := by
    intro x k
    cases x with
    | sizeUpdate n => exact ⟨(nomatch ·), (nomatch ·)⟩
    | _ k' => exact ⟨fun h => by injection h with h; rw [h]; rfl, fun h => by injection h with h; rw [h]; rfl⟩
  rw [g3, ← headersOf_map, ← he, key]
  refine exists_congr fun items => and_congr_right fun _ => and_congr ?_ ?_
  · constructor
    · intro hall k hk
      rw [he, headersOf_map] at hk
      obtain ⟨x, hx, hf⟩ := List.mem_filterMap.1 hk
      exact hall (entryOf x) (by rw [he]; exact List.mem_map_of_mem hx) k ((hentry x k).1 hf)
    · intro hall e hm k hk
      rw [he] at hm
      obtain ⟨x, hx, rfl⟩ := List.mem_map.1 hm
      exact hall k (by rw [he, headersOf_map]; exact List.mem_filterMap.2 ⟨x, hx, (hentry x k).2 hk⟩)
  · constructor
    · intro hall i x k hi hk hd
      exact hall i (entryOf x) k (by rw [he, List.getElem?_map, hi]; rfl) ((hentry x k).1 hk) hd
    · intro hall i e k hi hk hd
      rw [he, List.getElem?_map] at hi
      obtain ⟨x, hx, rfl⟩ := Option.map_eq_some_iff.1 hi
      exact hall i x k hx ((hentry x k).2 hk) hd

/-- C123 is false of the code for headers that came as an index: if such a header, alone in its frame,
is in none of the tables of the other connection, the server there does not read it. -/
theorem C123_index_violated [Platform] (c : Client) (f : HeadersFrame)
    (h : c.receiveFrame.1 = .ok (.headers f)) (k : Header)
    (hf : f.headerBlock = [⟨.indexed, .header k⟩]) (t : DynamicTable) (mode : EncodeMode) (sid : UInt32)
    (hk : ¬ InTables k t) :
    ∃ g octets, HeadersFrame.new 4 sid f.headerBlock mode t = .ok g ∧ g.serialize = .ok octets ∧
      ¬ ∃ sent t', BlockDecodes ⟨t.entries, t.maxTableSize⟩ (octets.drop 9) sent t' ∧
          fields sent = [k] := by
  obtain ⟨block, got, hc, hl, he⟩ := received_items h
  obtain ⟨b, hb, -⟩ := C27_well_typed ⟨.indexed, .header k⟩ mode t (Or.inr ⟨nofun, k, rfl⟩)
  have hbl : encodeHeaderBlock f.headerBlock mode t = .ok b := by
    rw [hf, encodeHeaderBlock, hb]
    show Res.ok (b ++ []) = _
    rw [List.append_nil]
  obtain ⟨g, octets, g1, g2, g3⟩ := sent_payload hbl sid
  refine ⟨g, octets, g1, g2, ?_⟩
  rw [g3]
  intro hd
  rcases (C31_one_entry_partial t mode ⟨.indexed, .header k⟩ (Or.inr ⟨nofun, k, rfl⟩) b (hf ▸ hbl)).1
    hd k rfl with h | h
  · exact hk h
  · exact h.1 rfl

/-- C123 is false of the code for never indexed headers: RFC 7541 6.2.3 demands that they are sent on as
never indexed, but one that is in a table of the other connection is sent as an index. -/
theorem C123_never_indexed_violated [Platform] (c : Client) (f : HeadersFrame)
    (h : c.receiveFrame.1 = .ok (.headers f)) (k : Header)
    (hf : f.headerBlock = [⟨.neverIndexed, .header k⟩]) (t : DynamicTable) (mode : EncodeMode)
    (sid : UInt32) (hk : InTables k t) :
    ∃ block g octets t', CarriesBlock f.header.flags 1 (payloadAt c.conn.incoming) block ∧
      LooseItems c.responseTable.entries block [.neverIndexed k] [] ∧
      HeadersFrame.new 4 sid f.headerBlock mode t = .ok g ∧ g.serialize = .ok octets ∧
      BlockDecodes ⟨t.entries, t.maxTableSize⟩ (octets.drop 9) [.indexed k] t' := by
  obtain ⟨block, got, hc, hl, he⟩ := received_items h
  rw [hf] at he
  obtain rfl : got = [.neverIndexed k] := by
    obtain ⟨item, rfl, h2⟩ := List.map_eq_singleton_iff.1 he.symm
    cases item <;> cases h2
    rfl
  obtain ⟨bytes, sent, t', h1, h2, h3, -, -⟩ := C31_peer_decodes_partial t mode f.headerBlock
    (by rw [hf]; intro e he; rw [List.mem_singleton.1 he]; exact Or.inr ⟨nofun, k, rfl⟩)
    (by rw [hf]; intro e he hp; rw [List.mem_singleton.1 he] at hp; cases hp)
    (by
      rw [hf]; intro e he k' hk' hn
      rw [List.mem_singleton.1 he] at hk'
      injection hk' with hk'
      exact absurd (hk' ▸ hk) hn)
    (by rw [hf]; exact List.pairwise_singleton _ _)
  obtain ⟨g, octets, g1, g2, g3⟩ := sent_payload h1 sid
  rw [hf] at h3
  cases h3 with
  | cons h3 h4 =>
      cases h4
      cases h3 with
      | hit => exact ⟨block, g, octets, t', hc, hl, g1, g2, g3 ▸ h2⟩
      | neverIndexed _ hn => exact absurd hk hn

/-! Three received frames: `:status 200` as an index of the static table, `k: v` as an index of the
dynamic table, and `k: v` as a never indexed literal. -/

def holds (entries : List Header) : DynamicTable :=
  ⟨entries, (entries.map fun h => h.1.length + h.2.length + 32).sum, 4096⟩

attribute [local instance] x86 in
example :
    (⟨⟨[0, 0, 1, 1, 4, 0, 0, 0, 1, 0x88], [], [9, 9], []⟩, .default, .default⟩ : Client).receiveFrame.1 =
      .ok (.headers ⟨[0x88], ⟨1, 1, 4, 0, 1⟩, [], .zero, [⟨.indexed, .header (bstr ":status", bstr "200")⟩]⟩) ∧
    (⟨⟨[0, 0, 1, 1, 4, 0, 0, 0, 1, 0xbe], [], [9, 9], []⟩, .default, holds [(bstr "k", bstr "v")]⟩ :
      Client).receiveFrame.1 =
      .ok (.headers ⟨[0xbe], ⟨1, 1, 4, 0, 1⟩, [], .zero, [⟨.indexed, .header (bstr "k", bstr "v")⟩]⟩) ∧
    InTables (bstr ":status", bstr "200") .default ∧ ¬ InTables (bstr "k", bstr "v") .default ∧
    (⟨⟨[0, 0, 5, 1, 4, 0, 0, 0, 1, 0x10, 1, 0x6b, 1, 0x76], [], [9, 9], []⟩, .default, .default⟩ :
      Client).receiveFrame.1 =
      .ok (.headers ⟨[0x10, 1, 0x6b, 1, 0x76], ⟨5, 1, 4, 0, 1⟩, [], .zero,
        [⟨.neverIndexed, .header (bstr "k", bstr "v")⟩]⟩) ∧
    InTables (bstr "k", bstr "v") (holds [(bstr "k", bstr "v")]) := by
  refine ⟨by decide +kernel, by decide +kernel, Or.inl ⟨by decide, 8, by decide +kernel⟩, ?_, by decide +kernel, Or.inr (by decide)⟩
  rw [← hitIndex_none]
  decide +kernel

end Mh2c
