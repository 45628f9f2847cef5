/-
C128: only what was marked for indexing is ever in a table.
-/
import Verif.Spec.Provenance
import Verif.Props.TableLimit
import Verif.Props.Indexing
import Verif.Spec.ServerStream

namespace Mh2c

open Rfc DynamicTable
open scoped List

theorem resizeRev_suffix {l rev : List Header} {current max size : Nat}
    (h : resizeRev l current max = .ok (rev, size)) : rev <:+ l := by
  induction l generalizing current with
  | nil =>
      unfold resizeRev at h
      split at h
      · cases h
      · cases h; exact List.suffix_refl _
  | cons x xs ih =>
      unfold resizeRev at h
      split at h
      · exact (ih h).trans (List.suffix_cons _ _)
      · cases h; exact List.suffix_refl _

theorem resize_prefix {l l' : List Header} {current max size : Nat}
    (h : resize l current max = .ok (l', size)) : l' <+: l := by
  unfold resize at h
  obtain ⟨⟨rev, s⟩, h1, h2⟩ := Res.bind_eq_ok.1 h
  cases h2
  have := resizeRev_suffix h1
  rw [← List.reverse_prefix, List.reverse_reverse] at this
  exact this

theorem entry_prefix {e : HeaderEntry} {t t' : DynamicTable}
    (h : updateDynamicTableEntry e t = .ok t') :
    t'.entries <+: HeaderBlock.toIndex [e] ++ t.entries := by
  unfold updateDynamicTableEntry at h
  rcases e with ⟨p, v⟩
  split at h
  · rename_i hp
    change p = _ at hp
    subst hp
    obtain ⟨x, hx, hpush⟩ := Res.bind_eq_ok.1 h
    clear h
    cases v with
    | maxSize n => cases hx
    | header y =>
        cases hx
        unfold push at hpush
        obtain ⟨⟨es, s⟩, h1, h2⟩ := Res.bind_eq_ok.1 hpush
        cases h2
        exact List.cons_prefix_cons.2 ⟨rfl, resize_prefix h1⟩
  · rename_i hp
    have he : HeaderBlock.toIndex [⟨p, v⟩] = [] := by
      unfold HeaderBlock.toIndex
      cases p <;> first | rfl | exact absurd rfl hp
    rw [he, List.nil_append]
    split at h
    · obtain ⟨n, -, h⟩ := Res.bind_eq_ok.1 h
      unfold updateTableSize at h
      obtain ⟨⟨es, s⟩, h1, h2⟩ := Res.bind_eq_ok.1 h
      cases h2
      exact resize_prefix h1
    · cases h
      exact List.prefix_refl _

theorem toIndex_cons (e : HeaderEntry) (es : HeaderBlock) :
    HeaderBlock.toIndex (e :: es) = HeaderBlock.toIndex [e] ++ HeaderBlock.toIndex es := by
  unfold HeaderBlock.toIndex
  rw [← List.filterMap_append]
  rfl

theorem toIndex_single (e : HeaderEntry) :
    (HeaderBlock.toIndex [e]).reverse = HeaderBlock.toIndex [e] := by
  unfold HeaderBlock.toIndex
  rw [List.filterMap_cons]
  split <;> rfl

theorem update_sublist (block : HeaderBlock) (t : DynamicTable) :
    (updateDynamicTable block t).2.entries <+ block.toIndex.reverse ++ t.entries ∧
    ((updateDynamicTable block t).1 = .ok () →
      (updateDynamicTable block t).2.entries <+: block.toIndex.reverse ++ t.entries) := by
  induction block generalizing t with
  | nil => exact ⟨List.Sublist.refl _, fun _ => List.prefix_refl _⟩
  | cons e es ih =>
      have keep : t.entries <+ (HeaderBlock.toIndex (e :: es)).reverse ++ t.entries :=
        List.sublist_append_right _ _
      unfold updateDynamicTable
      cases he : updateDynamicTableEntry e t with
      | throw x => exact ⟨keep, fun h => by cases h⟩
      | ub k => exact ⟨keep, fun h => by cases h⟩
      | diverge => exact ⟨keep, fun h => by cases h⟩
      | ok u =>
          have h1 := entry_prefix he
          obtain ⟨i1, i2⟩ := ih u
          rw [toIndex_cons, List.reverse_append, toIndex_single, List.append_assoc]
          exact ⟨i1.trans (List.Sublist.append_left h1.sublist _),
            fun h => (i2 h).trans ((List.prefix_append_right_inj _).2 h1)⟩

/-! ## C128 -/

/-- C128, request table. After every history of calls the entries of the request table, newest
first, are among the headers that were reported with INCREMENTAL_INDEXING, in the reverse of the
order in which they were reported. If every report returned, they are the last ones reported. -/
theorem C128_request [Platform] (conn : Conn) (ops : List Op) (c : Client)
    (h : History (Client.new conn) ops c) :
    c.requestTable.entries <+ (reported ops).reverse ∧
    ((∀ b o, (Op.updateRequestBlock b, o) ∈ (runCalls (Client.new conn) ops).1 →
        o = .done (.ok ())) → c.requestTable.entries <+: (reported ops).reverse) := by
  have key : ∀ (d d' : Client) (ops : List Op), History d ops d' →
      d'.requestTable.entries <+ (reported ops).reverse ++ d.requestTable.entries ∧
      ((∀ b o, (Op.updateRequestBlock b, o) ∈ (runCalls d ops).1 → o = .done (.ok ())) →
        d'.requestTable.entries <+: (reported ops).reverse ++ d.requestTable.entries) := by
    intro d d' ops h
    induction h with
    | nil c => exact ⟨List.Sublist.refl _, fun _ => List.prefix_refl _⟩
    | cons c op ops c' hs _ ih =>
        have hcall : (op.run c).2 = (op.call c).2 := by cases op <;> rfl
        have hrep : reported (op :: ops) = reported [op] ++ reported ops := by simp [reported]
        have step : (op.run c).2.requestTable.entries <+
              (reported [op]).reverse ++ c.requestTable.entries ∧
            ((∀ b o, (Op.updateRequestBlock b, o) = (op, (op.call c).1) → o = .done (.ok ())) →
              (op.run c).2.requestTable.entries <+:
                (reported [op]).reverse ++ c.requestTable.entries) := by
          have same : ∀ d : Client, d.requestTable.entries <+: c.requestTable.entries →
              reported [op] = [] →
              d.requestTable.entries <+ (reported [op]).reverse ++ c.requestTable.entries ∧
              ((∀ b o, (Op.updateRequestBlock b, o) = (op, (op.call c).1) → o = .done (.ok ())) →
                d.requestTable.entries <+: (reported [op]).reverse ++ c.requestTable.entries) := by
            intro d hd hr
            rw [hr]
            exact ⟨hd.sublist, fun _ => hd⟩
          cases op with
          | sendPreface => exact same _ (List.prefix_refl _) rfl
          | sendRaw data => exact same _ (List.prefix_refl _) rfl
          | receiveRaw n => exact same _ (List.prefix_refl _) rfl
          | sendFrame f =>
              exact same _ (by
                rw [show (Op.run (.sendFrame f) c).2.requestTable = _ from (C59_send c f).1]
                exact List.prefix_refl _) rfl
          | receiveFrame =>
              exact same _ (by
                rw [show (Op.run .receiveFrame c).2.requestTable = _ from (C59_receive c).1]
                exact List.prefix_refl _) rfl
          | updateRequestBlock b =>
              rw [show reported [Op.updateRequestBlock b] = b.toIndex by simp [reported]]
              obtain ⟨u1, u2⟩ := update_sublist b c.requestTable
              refine ⟨u1, fun hr => u2 ?_⟩
              have := hr b _ rfl
              injection this
          | updateRequestSize n =>
              refine same _ ?_ rfl
              show (c.updateRequestTableSize n).2.requestTable.entries <+: _
              unfold Client.updateRequestTableSize
              cases hu : c.requestTable.updateTableSize n with
              | ok t =>
                  unfold updateTableSize at hu
                  obtain ⟨⟨es, s⟩, h1, h2⟩ := Res.bind_eq_ok.1 hu
                  cases h2
                  exact resize_prefix h1
              | throw e => exact List.prefix_refl _
              | ub k => exact List.prefix_refl _
              | diverge => exact List.prefix_refl _
        rw [hrep, List.reverse_append, List.append_assoc]
        refine ⟨ih.1.trans (List.Sublist.append_left step.1 _), fun hr => ?_⟩
        refine (ih.2 fun b o ho => hr b o ?_).trans ((List.prefix_append_right_inj _).2
          (step.2 fun b o ho => hr b o ?_))
        · rw [hcall] at ho
          exact List.mem_cons_of_mem _ ho
        · rw [ho]
          exact List.mem_cons_self
  have := key _ _ _ h
  rw [show (Client.new conn).requestTable.entries = [] from rfl, List.append_nil] at this
  exact this

/-- Two reports. The first throws at its second entry, a size update that is not one, so `b` is not
added although it was reported; the second reports `c` and a header that is never indexed. -/
example [P : Platform] :
    let c := Client.new ⟨[], [], [], []⟩
    let ops := [Op.updateRequestBlock [⟨.incrementalIndexing, .header (bstr "a", bstr "1")⟩,
        ⟨.sizeUpdate, .header (bstr "x", bstr "y")⟩,
        ⟨.incrementalIndexing, .header (bstr "b", bstr "2")⟩],
      Op.updateRequestBlock [⟨.neverIndexed, .header (bstr "password", bstr "secret")⟩,
        ⟨.incrementalIndexing, .header (bstr "c", bstr "3")⟩]]
    (runCalls c ops).2.requestTable.entries = [(bstr "c", bstr "3"), (bstr "a", bstr "1")] ∧
    reported ops = [(bstr "a", bstr "1"), (bstr "b", bstr "2"), (bstr "c", bstr "3")] ∧
    ((runCalls c ops).1.map fun r => match r.2 with
      | .done (.ok ()) => true
      | _ => false) = [false, true] ∧
    (bstr "password", bstr "secret") ∉ reported ops := by
  rcases P with ⟨_ | _, _ | _⟩ <;> decide +kernel

/-- C128, response table. After every history of calls, whatever the peer has sent, the entries of the
response table, newest first, are the last of the headers that the frames returned so far brought as
literals with incremental indexing. -/
theorem C128_response [Platform] (conn : Conn) (ops : List Op) (c : Client)
    (h : History (Client.new conn) ops c) :
    c.responseTable.entries <+:
      ((delivered (runCalls (Client.new conn) ops).1).flatMap Frame.toIndex).reverse := by
  have key : ∀ (d d' : Client) (ops : List Op), History d ops d' →
      d'.responseTable.entries <+:
        ((delivered (runCalls d ops).1).flatMap Frame.toIndex).reverse ++ d.responseTable.entries := by
    intro d d' ops h
    induction h with
    | nil c => exact List.prefix_refl _
    | cons c op ops c' hs _ ih =>
        have hcall : (op.run c).2 = (op.call c).2 := by cases op <;> rfl
        have hdel : delivered (runCalls c (op :: ops)).1 =
            delivered [(op, (op.call c).1)] ++ delivered (runCalls (op.call c).2 ops).1 := by
          unfold delivered
          rw [← List.filterMap_append]
          rfl
        rw [hdel, List.flatMap_append, List.reverse_append, List.append_assoc]
        rw [hcall] at ih
        refine ih.trans ((List.prefix_append_right_inj _).2 ?_)
        cases op with
        | sendPreface => exact List.prefix_refl _
        | sendRaw data => exact List.prefix_refl _
        | receiveRaw n => exact List.prefix_refl _
        | sendFrame f =>
            show (c.sendFrame f).2.responseTable.entries <+: c.responseTable.entries
            rw [(C59_send c f).2.1]
            exact List.prefix_refl _
        | updateRequestBlock b => exact List.prefix_refl _
        | updateRequestSize n =>
            show (c.updateRequestTableSize n).2.responseTable.entries <+: c.responseTable.entries
            obtain ⟨t, ht⟩ := (C59_request_table c [] n).2
            rw [ht]
            exact List.prefix_refl _
        | receiveFrame =>
            show c.receiveFrame.2.responseTable.entries <+: _
            rcases hr : c.receiveFrame with ⟨f | e | k | _, c1⟩
            · have hd : delivered [(Op.receiveFrame, (Op.receiveFrame.call c).1)] = [f] := by
                show delivered [(Op.receiveFrame, Outcome.frame c.receiveFrame.1)] = _
                rw [hr]
                rfl
              rw [hd]
              simp only [List.flatMap_cons, List.flatMap_nil, List.append_nil]
              obtain ⟨fh, raw, hb, hu⟩ := received_update hr
              rw [updateFrame_built hb] at hu
              have blk : ∀ block, updateDynamicTable block c.responseTable = (.ok (), c1.responseTable) →
                  c1.responseTable.entries <+: block.toIndex.reverse ++ c.responseTable.entries := by
                intro block hu
                have := (update_sublist block c.responseTable).2
                rw [hu] at this
                exact this rfl
              have same : c1.responseTable = c.responseTable →
                  c1.responseTable.entries <+: [] ++ c.responseTable.entries := by
                intro h
                rw [h]
                exact List.prefix_refl _
              cases f with
              | headers x => exact blk _ hu
              | pushPromise x => exact blk _ hu
              | continuation x => exact blk _ hu
              | settings x =>
                  simp only at hu
                  cases hl : x.payload.lookup 1 with
                  | none => rw [hl] at hu; exact same (congrArg Prod.snd hu).symm
                  | some n =>
                      rw [hl] at hu
                      simp only at hu
                      cases ht : c.responseTable.updateTableSize n.toNat with
                      | ok u =>
                          rw [ht] at hu
                          have hu : u = c1.responseTable := congrArg Prod.snd hu
                          subst hu
                          unfold updateTableSize at ht
                          obtain ⟨⟨es, s⟩, h1, h2⟩ := Res.bind_eq_ok.1 ht
                          rw [← Res.ok.inj h2]
                          exact resize_prefix h1
                      | throw e => rw [ht] at hu; cases hu
                      | ub k => rw [ht] at hu; cases hu
                      | diverge => rw [ht] at hu; cases hu
              | raw x => cases hu
              | data x => exact same (congrArg Prod.snd hu).symm
              | priority x => exact same (congrArg Prod.snd hu).symm
              | rstStream x => exact same (congrArg Prod.snd hu).symm
              | ping x => exact same (congrArg Prod.snd hu).symm
              | goaway x => exact same (congrArg Prod.snd hu).symm
              | windowUpdate x => exact same (congrArg Prod.snd hu).symm
            · have := (C60_throw_keeps_tables c e (by rw [hr])).2
              rw [hr] at this
              rw [this]
              have hd : delivered [(Op.receiveFrame, (Op.receiveFrame.call c).1)] = [] := by
                show delivered [(Op.receiveFrame, Outcome.frame c.receiveFrame.1)] = _
                rw [hr]
                rfl
              rw [hd]
              exact List.prefix_refl _
            · unfold Op.run at hs
              simp only [hr] at hs
              exact hs.elim
            · unfold Op.run at hs
              simp only [hr] at hs
              exact hs.elim
  have := key _ _ _ h
  rw [show (Client.new conn).responseTable.entries = [] from rfl, List.append_nil] at this
  exact this

/-- The peer sends a HEADERS frame with `a: b` to be indexed and `c: d` not to be, then a CONTINUATION
frame with `e: f` never to be indexed and `g: h` to be indexed. -/
example [P : Platform] :
    let c := Client.new ⟨frameOctets 1 0 1 [0x40, 1, 97, 1, 98, 0, 1, 99, 1, 100] ++
      frameOctets 9 4 1 [0x10, 1, 101, 1, 102, 0x40, 1, 103, 1, 104], [], List.replicate 6 9, []⟩
    let ops := [Op.receiveFrame, Op.receiveFrame]
    ((delivered (runCalls c ops).1).map Frame.toIndex) = [[([97], [98])], [([103], [104])]] ∧
    ((delivered (runCalls c ops).1).map Frame.headerList) =
      [[([97], [98]), ([99], [100])], [([101], [102]), ([103], [104])]] ∧
    (runCalls c ops).2.responseTable.entries = [([103], [104]), ([97], [98])] := by
  rcases P with ⟨_ | _, _ | _⟩ <;> decide +kernel

/-- Two tables that hold none of the headers of a block lead to the same octets. -/
theorem encode_absent (block : HeaderBlock) (mode : EncodeMode) (t u : DynamicTable)
    (ht : ∀ h ∈ headersOf block, h ∉ t.entries) (hu : ∀ h ∈ headersOf block, h ∉ u.entries) :
    encodeHeaderBlock block mode t = encodeHeaderBlock block mode u := by
  induction block with
  | nil => rfl
  | cons e es ih =>
      have hsub : ∀ h ∈ headersOf es, h ∈ headersOf (e :: es) := by
        intro h hh
        have : headersOf (e :: es) = headersOf [e] ++ headersOf es := by
          unfold headersOf
          rw [← List.filterMap_append]
          rfl
        rw [this]
        exact List.mem_append_right _ hh
      have one : encodeHeader e mode t = encodeHeader e mode u := by
        rcases e with ⟨p, v⟩
        by_cases hp : p = .sizeUpdate
        · subst hp
          rfl
        · cases v with
          | maxSize n =>
              unfold encodeHeader
              simp only [if_neg hp]
              rfl
          | header h =>
              have hm : h ∈ headersOf (⟨p, .header h⟩ :: es) := by
                unfold headersOf
                rw [List.filterMap_cons]
                exact List.mem_cons_self
              have find : ∀ {w : DynamicTable}, h ∉ w.entries → findIndex h w.entries = none :=
                fun hw => findIndex_none.2 hw
              rw [encodeHeader_header hp, encodeHeader_header hp]
              unfold hitIndex
              rw [find (ht h hm), find (hu h hm)]
      rw [encodeHeaderBlock, encodeHeaderBlock, one,
        ih (fun h hh => ht h (hsub h hh)) (fun h hh => hu h (hsub h hh))]

/-- C128, what is sent. If none of the headers of a block was ever reported with
INCREMENTAL_INDEXING, then after every history of calls the frame that carries the block is the
one that a new client would make: no header sent before shows in it, and none of its headers is sent
as a reference to the dynamic table. -/
theorem C128_unreported [Platform] (conn : Conn) (ops : List Op) (c : Client)
    (h : History (Client.new conn) ops c) (block : HeaderBlock)
    (hb : ∀ x ∈ headersOf block, x ∉ reported ops) (mode : EncodeMode) (flags : UInt8)
    (stream : UInt32) (padding : Bytes) (priority : PriorityOption)
    (promise : PushPromisePayload) (hp : promise.headerBlock = block) :
    HeadersFrame.new flags stream block mode c.requestTable padding priority =
      HeadersFrame.new flags stream block mode (Client.new conn).requestTable padding priority ∧
    ContinuationFrame.new flags stream block mode c.requestTable =
      ContinuationFrame.new flags stream block mode (Client.new conn).requestTable ∧
    PushPromiseFrame.new flags stream promise mode c.requestTable =
      PushPromiseFrame.new flags stream promise mode (Client.new conn).requestTable := by
  have he := encode_absent block mode c.requestTable (Client.new conn).requestTable
    (fun x hx hm => hb x hx (List.mem_reverse.1 ((C128_request conn ops c h).1.subset hm)))
    (fun x _ hm => by cases hm)
  refine ⟨?_, ?_, ?_⟩
  · unfold HeadersFrame.new HeadersFrame.constructEncodedPayload
    rw [he]
  · unfold ContinuationFrame.new
    rw [he]
  · unfold PushPromiseFrame.new PushPromiseFrame.constructEncodedPayload
    rw [hp, he]

/-- After a request whose password was never to be indexed, the same password is sent in the same
octets as at first; a header that was reported is sent in another way than at first. -/
example :
    let first : HeaderBlock := [⟨.neverIndexed, .header (bstr "password", bstr "secret")⟩,
      ⟨.incrementalIndexing, .header (bstr "c", bstr "3")⟩]
    let c := ((Client.new ⟨[], [], [], []⟩).updateRequestDynamicTable first).2
    let again : HeaderBlock := [⟨.neverIndexed, .header (bstr "password", bstr "secret")⟩]
    let other : HeaderBlock := [⟨.neverIndexed, .header (bstr "c", bstr "3")⟩]
    c.requestTable.entries = [(bstr "c", bstr "3")] ∧
    reported [.updateRequestBlock first] = [(bstr "c", bstr "3")] ∧
    headersOf again = [(bstr "password", bstr "secret")] ∧
    encodeHeaderBlock again .none c.requestTable =
      .ok ([0x10, 8] ++ bstr "password" ++ [6] ++ bstr "secret") ∧
    encodeHeaderBlock other .none c.requestTable = .ok [0xbe] ∧
    encodeHeaderBlock other .none (Client.new ⟨[], [], [], []⟩).requestTable =
      .ok [0x10, 1, 99, 1, 51] := by
  decide +kernel

/-- C128, secrets. A header that was never reported with INCREMENTAL_INDEXING and is not an entry of the
static table with a value goes out, when it is marked NEVER_INDEXED, as a literal that says so. -/
theorem C128_secret [Platform] (conn : Conn) (ops : List Op) (c : Client)
    (h : History (Client.new conn) ops c) (x : Header) (hr : x ∉ reported ops)
    (hs : x.2 = [] ∨ ∀ i, staticTableEntries.lookup i ≠ some x) (mode : EncodeMode) :
    ∃ bytes, encodeHeader ⟨.neverIndexed, .header x⟩ mode c.requestTable = .ok bytes ∧
      (∃ b bs, bytes = b :: bs ∧ b.toNat / 2 ^ 4 = 1) ∧
      ∀ t : Table, ∃ f, f.2 = x.2 ∧ (x.1 ≠ bstr "accept-control-allow-origin" → f = x) ∧
        BlockDecodes t bytes [.neverIndexed f] t := by
  obtain ⟨bytes, h1, h2, h3, -⟩ := C34_never_indexed x mode c.requestTable (by
    rintro (⟨hv, i, hi⟩ | hm)
    · exact hs.elim hv fun hn => hn i hi
    · exact hr (List.mem_reverse.1 ((C128_request conn ops c h).1.subset hm)))
  exact ⟨bytes, h1, h2, h3⟩

attribute [local instance] x86 in
/-- Non-vacuity of `C128_secret`: after a request in which `c: 3` was reported, a password that was
not. It is a literal with a new name. -/
example :
    let ops := [Op.sendPreface, Op.updateRequestBlock [⟨.incrementalIndexing, .header (bstr "c", bstr "3")⟩]]
    let x : Header := (bstr "password", bstr "secret")
    ∃ c, History (Client.new ⟨[], [], [], []⟩) ops c ∧ x ∉ reported ops ∧
      (∀ i, staticTableEntries.lookup i ≠ some x) ∧
      encodeHeader ⟨.neverIndexed, .header x⟩ .none c.requestTable =
        .ok ([0x10, 8] ++ bstr "password" ++ [6] ++ bstr "secret") := by
  refine ⟨_, .cons _ _ _ _ (by decide +kernel) (.cons _ _ _ _ (by decide +kernel) (.nil _)),
    by decide +kernel, ?_, by decide +kernel⟩
  intro i hi
  have : ∀ p ∈ staticTableEntries, p.2 ≠ (bstr "password", bstr "secret") := by decide +kernel
  exact this _ (lookup_mem hi) rfl

end Mh2c
