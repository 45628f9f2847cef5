/-
C91: exactly which sequences of header blocks a server understands.
-/
import Verif.Spec.Requests
import Verif.Props.OneEntry

namespace Mh2c

open Rfc

/-- Where the headers sent as positions are still there, the peer reads the representations meant. -/
theorem still_decodes {table : DynamicTable} {mode : EncodeMode} {block : HeaderBlock}
    {items : List Item} (hs : List.Forall₂ (SentAs table) block items)
    (hn : ∀ e ∈ block, ∀ h, e.entry = .header h → ¬ InTables h table → h.1 ≠ mistypedName)
    (t : Table) (bytes : Bytes) (henc : encodeHeaderBlock block mode table = .ok bytes)
    (hst : StillThere table t block items) :
    BlockDecodes t bytes items (items.foldl Item.apply t) := by
  induction hs generalizing t bytes with
  | nil =>
      obtain rfl := Res.ok.inj henc
      exact .nil t
  | @cons e item es is he hes ih =>
      rw [encodeHeaderBlock] at henc
      obtain ⟨a, ha, henc⟩ := Res.bind_eq_ok.1 henc
      obtain ⟨b, hb, henc⟩ := Res.bind_eq_ok.1 henc
      obtain rfl := Res.ok.inj henc
      rw [StillThere] at hst
      have ih' := ih (fun e' he' => hn e' (List.mem_cons_of_mem _ he')) _ b hb hst.2
      refine .cons t _ _ b _ is ?_ ih'
      by_cases hd : HitsDynamic table e
      · obtain ⟨h, hh, hm, hns⟩ := id hd
        have : ∃ p, p ≠ .sizeUpdate ∧ e = ⟨p, .header h⟩ ∧ item = .indexed h := by
          cases he with
          | size n => cases hh
          | hit p h' hp hh' =>
              injection hh with hh
              subst hh
              exact ⟨p, hp, rfl, rfl⟩
          | incremental h' hh' =>
              injection hh with hh
              subst hh
              exact absurd (Or.inr hm) hh'
          | withoutIndexing h' hh' =>
              injection hh with hh
              subst hh
              exact absurd (Or.inr hm) hh'
          | neverIndexed h' hh' =>
              injection hh with hh
              subst hh
              exact absurd (Or.inr hm) hh'
        obtain ⟨p, hp, rfl, rfl⟩ := this
        rw [encodeHeader_dynamic hp hd] at ha
        obtain rfl := Res.ok.inj ha
        have hget : t.get? (62 + table.entries.idxOf h) = t.entries[table.entries.idxOf h]? := by
          unfold Table.get?
          rw [if_neg (by omega), if_neg (by omega), Nat.add_sub_cancel_left]
        exact item_indexed understands_rfc _ trivial (by rw [hget]; exact hst.1 h rfl hd) b
      · obtain ⟨a', g1, g2, g3⟩ := encodeHeader_rfc (t := t) (mode := mode) he
          (hn e List.mem_cons_self) (Or.inr hd)
        rw [ha] at g1
        obtain rfl := Res.ok.inj g1
        exact g3 b

/-- The same for blocks one after the other. -/
def AllStillThere : Table → List SentBlock → List (List Item) → Prop
  | t, b :: bs, is :: iss =>
      StillThere b.table t b.block is ∧ AllStillThere (is.foldl Item.apply t) bs iss
  | _, _, _ => True

theorem reports_exact {table table' : DynamicTable} {sent : List SentBlock}
    (h : Reports table sent table') (hc : ∀ b ∈ sent, b.Clear) (t : Table) :
    (∃ t', PeerReads t sent t') ↔
      ∃ itemss, List.Forall₂ SentBlock.Represented sent itemss ∧ AllStillThere t sent itemss := by
  induction h generalizing t with
  | nil => exact ⟨fun _ => ⟨[], .nil, trivial⟩, fun _ => ⟨t, .nil t⟩⟩
  | resize _ _ _ _ _ _ _ ih => exact ih hc t
  | block table table1 table' mode block octets sent henc _ _ ih =>
      have ih' := ih fun b hb => hc b (List.mem_cons_of_mem _ hb)
      constructor
      · rintro ⟨t', h⟩
        cases h with
        | cons _ t1 _ _ items' _ hd hf hr =>
            obtain ⟨⟨items, hs⟩, hn⟩ := no_bad_entry (hc _ List.mem_cons_self) henc hd hf
            have hst := (block_exact hs hn t octets henc).1 ⟨items', t1, hd, hf⟩
            obtain ⟨rfl, rfl⟩ := BlockDecodes.unique hd (still_decodes hs hn t octets henc hst)
            obtain ⟨iss, h1, h2⟩ := (ih' _).1 ⟨t', hr⟩
            exact ⟨_ :: iss, .cons ⟨hs, hn⟩ h1, hst, h2⟩
      · rintro ⟨iss, hrep, hall⟩
        cases hrep with
        | @cons _ items _ iss hb h1 =>
        obtain ⟨hs, hn⟩ := hb
        obtain ⟨hst, hall⟩ := hall
        obtain ⟨t', hr⟩ := (ih' _).2 ⟨_, h1, hall⟩
        refine ⟨t', .cons _ _ _ _ items _ (still_decodes hs hn t octets henc hst) ?_ hr⟩
        exact fields_of_sentAs hs

theorem allStillThere_iff {sent : List SentBlock} {itemss : List (List Item)}
    (h : List.Forall₂ SentBlock.Represented sent itemss) (t : Table) :
    AllStillThere t sent itemss ↔
      ∀ n b items, sent[n]? = some b → itemss[n]? = some items →
        ∀ k e h, b.block[k]? = some e → e.entry = .header h → HitsDynamic b.table e →
          (((itemss.take n).flatten ++ items.take k).foldl Item.apply t).entries[
            b.table.entries.idxOf h]? = some h := by
  induction h generalizing t with
  | nil => exact ⟨fun _ n b items hn => by simp at hn, fun _ => trivial⟩
  | cons hb _ ih =>
      rw [AllStillThere, stillThere_iff hb.1.length_eq, ih]
      constructor
      · rintro ⟨h1, h2⟩ n b items hn hi
        cases n with
        | zero =>
            obtain rfl := Option.some.inj hn
            obtain rfl := Option.some.inj hi
            exact h1
        | succ n =>
            intro k e h hk hh hd
            have := h2 n b items hn hi k e h hk hh hd
            rw [← List.foldl_append, ← List.append_assoc] at this
            exact this
      · intro hall
        refine ⟨hall 0 _ _ rfl rfl, ?_⟩
        intro n b items hn hi k e h hk hh hd
        have := hall (n + 1) b items hn hi k e h hk hh hd
        rw [← List.foldl_append, ← List.append_assoc]
        exact this

/-- C91, exactly, as far as header blocks go. Blocks are sent and reported one after the other, from
any state of the two tables, in step or not, with the table resized in between. The server reads
every block as the headers the client was given if and only if every entry has a representation
(INDEXED only for headers in a table), no literal has the mistyped name, and each header that was
encoded as a position in the dynamic table is, when the server comes to it, at that position of the
server's table. Missing (false of the code): the histories in which this is not so; and, as a
hypothesis, what becomes of the entries that `Clear` leaves out. -/
theorem C91_exact_partial (table table' : DynamicTable) (sent : List SentBlock)
    (h : Reports table sent table') (hc : ∀ b ∈ sent, b.Clear) (peer : Table) :
    (∃ t', PeerReads peer sent t') ↔
    ∃ itemss, List.Forall₂ SentBlock.Represented sent itemss ∧
      ∀ n b items, sent[n]? = some b → itemss[n]? = some items →
        ∀ k e h, b.block[k]? = some e → e.entry = .header h → HitsDynamic b.table e →
          (((itemss.take n).flatten ++ items.take k).foldl Item.apply peer).entries[
            b.table.entries.idxOf h]? = some h := by
  rw [reports_exact h hc]
  constructor
  · rintro ⟨itemss, h1, h2⟩
    exact ⟨itemss, h1, (allStillThere_iff h1 peer).1 h2⟩
  · rintro ⟨itemss, h1, h2⟩
    exact ⟨itemss, h1, (allStillThere_iff h1 peer).2 h2⟩

/-- A table of two headers. -/
def baTable : DynamicTable := ⟨[(bstr "b", bstr "2"), (bstr "a", bstr "1")], 68, 4096⟩

/-- `a: 1` twice in a row, each time to be indexed: the client inserts it again, the server does
not. -/
def againSent : List SentBlock :=
  [⟨baTable, .huffman, [⟨.incrementalIndexing, .header (bstr "a", bstr "1")⟩], [0xbf]⟩,
    ⟨⟨[(bstr "a", bstr "1"), (bstr "b", bstr "2"), (bstr "a", bstr "1")], 102, 4096⟩, .huffman,
      [⟨.incrementalIndexing, .header (bstr "a", bstr "1")⟩], [0xbe]⟩]

theorem again_reports : Reports baTable againSent
    ⟨[(bstr "a", bstr "1"), (bstr "a", bstr "1"), (bstr "b", bstr "2"), (bstr "a", bstr "1")],
      136, 4096⟩ :=
  .block _ ⟨[(bstr "a", bstr "1"), (bstr "b", bstr "2"), (bstr "a", bstr "1")], 102, 4096⟩ _
    .huffman _ _ _ (by decide +kernel) (by decide +kernel)
    (.block _ _ _ .huffman _ _ _ (by decide +kernel) (by decide +kernel) (.nil _))

/-- A server in step with the client reads the first block as meant and not the second. -/
example : ¬ ∃ t', PeerReads ⟨baTable.entries, 4096⟩ againSent t' := by
  rw [C91_exact_partial _ _ _ again_reports (fun b hb => by
    simp only [againSent, List.mem_cons, List.not_mem_nil, or_false] at hb
    rcases hb with rfl | rfl <;> exact fun h _ _ => Or.inr rfl)]
  rintro ⟨iss, hrep, h⟩
  cases hrep with | @cons _ _ _ _ h1 h2 =>
  cases h2 with | @cons _ _ _ _ _ h3 =>
  cases h3
  obtain ⟨h1, -⟩ := h1
  cases h1 with | @cons _ _ _ _ i1 i2 =>
  cases i2
  cases i1 with
  | hit _ _ _ _ =>
      have := h 1 againSent[1] _ rfl rfl 0 _ _ rfl rfl
        ⟨(bstr "a", bstr "1"), rfl, by decide, by
          rintro ⟨-, i, hi⟩
          rw [← staticTable_inverse] at hi
          revert hi
          have : reverseStaticTableEntries.lookup (bstr "a", bstr "1") = none := by decide +kernel
          rw [this]
          intro hi
          cases hi⟩
      rw [List.take_zero, List.append_nil, List.take_succ_cons, List.take_zero] at this
      revert this
      decide +kernel
  | incremental _ hn => exact hn (Or.inr (by decide))

end Mh2c
