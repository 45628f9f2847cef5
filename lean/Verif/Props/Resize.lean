/-
C93: changing the size of the request table between requests.
-/
import Verif.Props.HeaderRfc
import Verif.Props.Client
import Verif.Spec.ResizedClient

namespace Mh2c

open Rfc DynamicTable

/-- One table holds no more than the other. -/
def Below (a b : Table) : Prop := a.entries <+: b.entries ∧ a.max ≤ b.max

theorem Below.takeFit {a b : List Header} {m n : Nat} (h : a <+: b) (hmn : m ≤ n) :
    takeFit m a <+: takeFit n b :=
  takeFit_longest ((takeFit_prefix _ _).trans h) (Nat.le_trans (takeFit_total m a) hmn)

theorem Below.apply {a b : Table} (h : Below a b) (item : Item) : Below (item.apply a) (item.apply b) := by
  cases item with
  | incremental f => exact ⟨Below.takeFit (List.cons_prefix_cons.2 ⟨rfl, h.1⟩) h.2, h.2⟩
  | sizeUpdate n => exact ⟨Below.takeFit h.1 (Nat.le_refl _), Nat.le_refl _⟩
  | _ => exact h

theorem Below.foldl {a b : Table} (h : Below a b) (items : List Item) :
    Below (items.foldl Item.apply a) (items.foldl Item.apply b) := by
  induction items generalizing a b with
  | nil => exact h
  | cons item items ih => exact ih (h.apply item)

/-- One round, peer ahead. -/
theorem round_below {table : DynamicTable} {peer : Table} (ht : table.Inv)
    (hb : Below table.toRfc peer) {block : HeaderBlock} (good : GoodBlock table block)
    (mode : EncodeMode) :
    ∃ bytes items peer' table', encodeHeaderBlock block mode table = .ok bytes ∧
      BlockDecodes peer bytes items peer' ∧
      updateDynamicTable block table = (.ok (), table') ∧ table'.Inv ∧ Below table'.toRfc peer' ∧
      fields items = headersOf block := by
  obtain ⟨bytes, items, t', h1, h2, h3, h4, h5⟩ := C31_peer_decodes_partial table mode block
    good.typed good.indexed good.name good.order
  obtain ⟨bytes', g1, g2⟩ := block_rfc (mode := mode) h3 good.name good.order peer (Or.inl hb.1)
  rw [h1] at g1
  obtain rfl := Res.ok.inj g1
  obtain ⟨table', u1, u2, u3⟩ := update_refines ht (good.fits items h3)
  refine ⟨bytes, items, _, table', h1, g2, ?_, u2, ?_, h4⟩
  · rw [update_sentAs h3 good.incremental]
    exact u1
  · rw [u3]
    exact hb.foldl items

theorem ResizedSession.inv {table : DynamicTable} {peer : Table} (h : ResizedSession table peer) :
    table.Inv ∧ peer.max < 2 ^ 63 ∧ Below table.toRfc peer := by
  induction h with
  | start => exact ⟨inv_default, by decide, List.prefix_refl _, Nat.le_refl _⟩
  | send table table' peer peer' block mode bytes items prev good hsent hpeer hupd ih =>
      obtain ⟨h1, h2, h3⟩ := ih
      obtain ⟨bytes', items', peer'', table'', r1, r2, r3, r4, r5, r6⟩ := round_below h1 h3 good mode
      rw [hsent] at r1
      obtain rfl := Res.ok.inj r1
      obtain ⟨rfl, rfl⟩ := BlockDecodes.unique hpeer r2
      rw [hupd] at r3
      obtain rfl : table' = table'' := congrArg Prod.snd r3
      refine ⟨r4, ?_, r5⟩
      obtain ⟨items3, hs3⟩ : ∃ items, List.Forall₂ (SentAs table) block items := by
        obtain ⟨_, items3, _, _, _, h, _⟩ := C31_peer_decodes_partial table mode block good.typed
          good.indexed good.name good.order
        exact ⟨items3, h⟩
      have hfits := good.fits items3 hs3
      obtain ⟨b3, g1, g2⟩ := block_rfc (mode := mode) hs3 good.name good.order peer (Or.inl h3.1)
      rw [hsent] at g1
      obtain rfl := Res.ok.inj g1
      obtain ⟨rfl, rfl⟩ := BlockDecodes.unique hpeer g2
      have hmax : ∀ (is : List Item) (m : Nat) (t : Table), Fits m is → t.max < 2 ^ 63 →
          (is.foldl Item.apply t).max < 2 ^ 63 := by
        intro is
        induction is with
        | nil => intro m t _ ht; exact ht
        | cons i is ih =>
            intro m t hf ht
            cases i with
            | incremental f => exact ih m _ hf.2 ht
            | sizeUpdate n => exact ih n _ hf.2 hf.1
            | _ => exact ih m _ hf ht
      exact hmax _ _ _ hfits h2
  | resize table table' peer n prev hn hupd ih =>
      obtain ⟨h1, h2, h3⟩ := ih
      obtain ⟨t1, e1, e2, e3⟩ := updateTableSize_refines h1 (n := n) (by omega)
      rw [hupd] at e1
      obtain rfl := Res.ok.inj e1
      refine ⟨e2, h2, ?_⟩
      rw [e3]
      exact ⟨(takeFit_prefix _ _).trans h3.1, hn⟩

/-! ## C93 -/

/-- C93. Whatever sizes within the peer's the client has set in between: the newest entries of the
peer's table are those of the client's. Missing: larger sizes, see below. -/
theorem C93_tables_partial (table : DynamicTable) (peer : Table) (h : ResizedSession table peer) :
    table.entries <+: peer.entries ∧ table.maxTableSize ≤ peer.max := h.inv.2.2

/-- C93. After any such history every good block is sent and decoded as meant, and the history can go
on, with another size too. Missing: larger sizes, as above. -/
theorem C93_session_partial (table : DynamicTable) (peer : Table) (h : ResizedSession table peer) :
    (∀ (block : HeaderBlock) (mode : EncodeMode), GoodBlock table block →
      ∃ bytes items peer' table', encodeHeaderBlock block mode table = .ok bytes ∧
        BlockDecodes peer bytes items peer' ∧ fields items = headersOf block ∧
        updateDynamicTable block table = (.ok (), table') ∧ ResizedSession table' peer') ∧
    (∀ n, n ≤ peer.max → ∃ table', table.updateTableSize n = .ok table' ∧ ResizedSession table' peer) := by
  obtain ⟨h1, h2, h3⟩ := h.inv
  constructor
  · intro block mode good
    obtain ⟨bytes, items, peer', table', r1, r2, r3, r4, r5, r6⟩ := round_below h1 h3 good mode
    exact ⟨bytes, items, peer', table', r1, r2, r6, r3, .send _ _ _ _ _ _ _ _ h good r1 r2 r3⟩
  · intro n hn
    obtain ⟨t1, e1, -⟩ := updateTableSize_refines h1 (n := n) (by omega)
    exact ⟨t1, e1, .resize _ _ _ n h hn e1⟩

theorem ResizedClient.session [Platform] {c : Client} {peer : Table} (h : ResizedClient c peer) :
    ResizedSession c.requestTable peer := by
  induction h with
  | start conn => exact .start
  | report c c' peer peer' block mode bytes items prev good hsent hpeer hupd ih =>
      unfold Client.updateRequestDynamicTable at hupd
      simp only [Prod.mk.injEq] at hupd
      refine .send _ _ _ _ block mode bytes items ih good hsent hpeer ?_
      rw [← hupd.2, ← hupd.1]
  | resize c c' peer n prev hn hupd ih =>
      unfold Client.updateRequestTableSize at hupd
      cases ht : c.requestTable.updateTableSize n with
      | ok t =>
          rw [ht] at hupd
          simp only [Prod.mk.injEq] at hupd
          rw [← hupd.2]
          exact .resize _ _ _ n ih hn ht
      | throw e => rw [ht] at hupd; simp at hupd
      | ub k => rw [ht] at hupd; simp at hupd
      | diverge => rw [ht] at hupd; simp at hupd
  | other c peer op hop prev ih =>
      have : (op.run c).2.requestTable = c.requestTable := by
        cases op with
        | sendFrame f => exact (C59_send c f).1
        | receiveFrame => exact (C59_receive c).1
        | sendPreface => rfl
        | sendRaw data => rfl
        | receiveRaw n => rfl
        | updateRequestBlock b => exact hop.elim
        | updateRequestSize n => exact hop.elim
      rw [this]
      exact ih

/-- C93, over the calls of a client. After any history of requests, size changes within the peer's
size and other calls: the newest entries of the peer's table are those of the request table; every
good block encoded against the request table is decoded as meant, and it can be reported; every size
within the peer's can be set, and it is in force then. The two calls change the request table only.
Missing: larger sizes, as above. -/
theorem C93_client_partial [Platform] (c : Client) (peer : Table) (h : ResizedClient c peer) :
    (c.requestTable.entries <+: peer.entries ∧ c.requestTable.maxTableSize ≤ peer.max) ∧
    (∀ (block : HeaderBlock) (mode : EncodeMode), GoodBlock c.requestTable block →
      ∃ bytes items peer' c', encodeHeaderBlock block mode c.requestTable = .ok bytes ∧
        BlockDecodes peer bytes items peer' ∧ fields items = headersOf block ∧
        c.updateRequestDynamicTable block = (.ok (), c') ∧ c'.conn = c.conn ∧
        c'.responseTable = c.responseTable ∧ ResizedClient c' peer') ∧
    (∀ n, n ≤ peer.max → ∃ c', c.updateRequestTableSize n = (.ok (), c') ∧
      c'.requestTable.maxTableSize = n ∧ c'.conn = c.conn ∧ c'.responseTable = c.responseTable ∧
      ResizedClient c' peer) := by
  have hs := h.session
  obtain ⟨h1, h2, h3⟩ := hs.inv
  refine ⟨h3, ?_, ?_⟩
  · intro block mode good
    obtain ⟨bytes, items, peer', table', r1, r2, r3, -, -, r6⟩ := round_below h1 h3 good mode
    have hu : c.updateRequestDynamicTable block = (.ok (), { c with requestTable := table' }) := by
      unfold Client.updateRequestDynamicTable
      rw [r3]
    exact ⟨bytes, items, peer', _, r1, r2, r6, hu, rfl, rfl,
      .report _ _ _ _ _ _ _ _ h good r1 r2 hu⟩
  · intro n hn
    obtain ⟨t1, e1, -, e3⟩ := updateTableSize_refines h1 (n := n) (by omega)
    have hu : c.updateRequestTableSize n = (.ok (), { c with requestTable := t1 }) := by
      unfold Client.updateRequestTableSize
      rw [e1]
    exact ⟨_, hu, congrArg Table.max e3, rfl, rfl, .resize _ _ _ n h hn hu⟩

/-- Non-vacuity of `C93_client_partial`: a client that has read nothing, tried to receive a frame,
set its table to 100 octets and then to 200. -/
example [Platform] : ∃ c, ResizedClient c ⟨[], 4096⟩ ∧ c.requestTable.maxTableSize = 200 := by
  obtain ⟨-, -, h1⟩ := C93_client_partial _ _
    (.other _ _ .receiveFrame trivial (.start ⟨[0, 0], [], [2], []⟩))
  obtain ⟨c1, -, -, -, -, h2⟩ := h1 100 (by decide)
  obtain ⟨c2, -, e, -, -, h3⟩ := (C93_client_partial _ _ h2).2.2 200 (by decide)
  exact ⟨c2, h3, e⟩

/-- C93 is false of the code for sizes beyond the peer's: nothing is signalled, the client goes on
using entries the peer has evicted, and the peer cannot decode the block. (The first block sets both
tables to 40 octets to keep the example short.) -/
theorem C93_growth_violated :
    ∃ (t1 t2 t3 t4 : DynamicTable) (p1 p3 p4 : Table) (w1 w3 w4 w5 : Bytes),
      ResizedSession t1 p1 ∧ t1.updateTableSize 100 = .ok t2 ∧ p1.max = 40 ∧
      encodeHeaderBlock [⟨.sizeUpdate, .maxSize 40⟩] .none .default = .ok w1 ∧
      BlockDecodes ⟨[], 4096⟩ w1 [.sizeUpdate 40] p1 ∧
      encodeHeaderBlock [⟨.incrementalIndexing, .header (bstr "a", bstr "1")⟩] .none t2 = .ok w3 ∧
      BlockDecodes p1 w3 [.incremental (bstr "a", bstr "1")] p3 ∧
      updateDynamicTable [⟨.incrementalIndexing, .header (bstr "a", bstr "1")⟩] t2 = (.ok (), t3) ∧
      encodeHeaderBlock [⟨.incrementalIndexing, .header (bstr "b", bstr "2")⟩] .none t3 = .ok w4 ∧
      BlockDecodes p3 w4 [.incremental (bstr "b", bstr "2")] p4 ∧
      updateDynamicTable [⟨.incrementalIndexing, .header (bstr "b", bstr "2")⟩] t3 = (.ok (), t4) ∧
      GoodBlock t4 [⟨.indexed, .header (bstr "a", bstr "1")⟩] ∧
      encodeHeaderBlock [⟨.indexed, .header (bstr "a", bstr "1")⟩] .none t4 = .ok w5 ∧
      ¬ ∃ items p5, BlockDecodes p4 w5 items p5 := by
  have hw1 : BlockDecodes ⟨[], 4096⟩ [0x3f, 9] [.sizeUpdate 40] ⟨[], 40⟩ :=
    .cons _ _ _ [] _ _ (.sizeUpdate 0x3f [9] [] 40 (by decide) (by decide)) (.nil _)
  have hgood1 : GoodBlock .default [⟨.sizeUpdate, .maxSize 40⟩] := by
    constructor
    · intro e he
      rw [List.mem_singleton] at he
      subst he
      exact Or.inl ⟨rfl, _, rfl⟩
    · intro e he hp
      rw [List.mem_singleton] at he
      subst he
      cases hp
    · intro e he hp
      rw [List.mem_singleton] at he
      subst he
      cases hp
    · intro e he h hh
      rw [List.mem_singleton] at he
      subst he
      cases hh
    · simp
    · intro items hi
      cases hi with
      | cons h1 h2 =>
          cases h2
          cases h1
          exact ⟨by decide, trivial⟩
  refine ⟨⟨[], 0, 40⟩, ⟨[], 0, 100⟩, ⟨[(bstr "a", bstr "1")], 34, 100⟩,
    ⟨[(bstr "b", bstr "2"), (bstr "a", bstr "1")], 68, 100⟩, ⟨[], 40⟩, ⟨[(bstr "a", bstr "1")], 40⟩,
    ⟨[(bstr "b", bstr "2")], 40⟩, [0x3f, 9], [0x40, 1, 97, 1, 49], [0x40, 1, 98, 1, 50], [0xbf],
    .send _ _ _ _ _ .none [0x3f, 9] _ .start hgood1 (by decide +kernel) hw1 (by decide +kernel),
    by decide +kernel, rfl, by decide +kernel, hw1, by decide +kernel, ?_, by decide +kernel,
    by decide +kernel, ?_, by decide +kernel, ?_, by decide +kernel, ?_⟩
  · refine .cons _ _ _ [] _ _ (.incremental _ _ _ _ (by decide) ?_) (.nil _)
    exact .newName _ [1, 97, 1, 49] [1, 49] [] _ _ (by decide)
      (.plain 1 _ [97] _ (by decide) (by decide)) (.plain 1 _ [49] _ (by decide) (by decide))
  · refine .cons _ _ _ [] _ _ (.incremental _ _ _ _ (by decide) ?_) (.nil _)
    exact .newName _ [1, 98, 1, 50] [1, 50] [] _ _ (by decide)
      (.plain 1 _ [98] _ (by decide) (by decide)) (.plain 1 _ [50] _ (by decide) (by decide))
  · have hin : InTables (bstr "a", bstr "1")
        ⟨[(bstr "b", bstr "2"), (bstr "a", bstr "1")], 68, 100⟩ := Or.inr (by simp)
    constructor
    · intro e he
      rw [List.mem_singleton] at he
      subst he
      exact Or.inr ⟨by decide, _, rfl⟩
    · intro e he hp h hh
      rw [List.mem_singleton] at he
      subst he
      injection hh with hh; subst hh; exact hin
    · intro e he hp h hh
      rw [List.mem_singleton] at he
      subst he
      cases hp
    · intro e he h hh _
      rw [List.mem_singleton] at he
      subst he
      injection hh with hh; subst hh; decide
    · simp
    · intro items hi
      cases hi with
      | cons h1 h2 =>
          cases h2
          cases h1
          trivial
  · rintro ⟨items, p5, h⟩
    cases h with
    | cons _ _ _ rest item is hi hr =>
        cases hi with
        | indexed _ _ _ i f hb hi hf =>
            have h63 : intDecode 7 [0xbf] = some (63, []) := by decide
            rw [h63] at hi
            injection hi with hi
            injection hi with h1 h2
            subst h1
            have hn : Table.get? ⟨[(bstr "b", bstr "2")], 40⟩ 63 = none := by decide +kernel
            rw [hn] at hf
            cases hf
        | incremental _ _ _ _ hb => exact absurd hb (by decide)
        | sizeUpdate _ _ _ _ hb => exact absurd hb (by decide)
        | neverIndexed _ _ _ _ hb => exact absurd hb (by decide)
        | withoutIndexing _ _ _ _ hb => exact absurd hb (by decide)

/-- A session in which the table is made smaller, an entry is inserted, and a later block refers to
it while the peer holds more. -/
example : ∃ peer, ResizedSession ⟨[(bstr "b", bstr "2")], 34, 50⟩ peer ∧ peer.max = 4096 :=
  ⟨⟨[(bstr "b", bstr "2")], 4096⟩, .resize ⟨[(bstr "b", bstr "2")], 34, 4096⟩ _ _ 50
    (.send _ _ _ _ _ .none [0x82, 0x40, 1, 98, 1, 50] [.indexed (bstr ":method", bstr "GET"),
      .incremental (bstr "b", bstr "2")] .start goodBlock_sample
      (by decide +kernel) (.cons _ _ _ [0x40, 1, 98, 1, 50] _ _
        (.indexed 0x82 _ _ 2 _ (by decide) (by decide) (by decide +kernel))
        (.cons _ _ _ [] _ _ (.incremental _ _ _ _ (by decide)
          (.newName _ [1, 98, 1, 50] [1, 50] [] _ _ (by decide)
            (.plain 1 _ [98] _ (by decide) (by decide)) (.plain 1 _ [50] _ (by decide) (by decide))))
          (.nil _))) (by decide +kernel)) (by decide) (by decide +kernel), rfl⟩

end Mh2c
