/-
C102: the room the peer can make the client's response table take.
-/
import Verif.Props.Ignored
import Verif.Props.Bounds
import Verif.Spec.History

namespace Mh2c

open Rfc

/-! ## C102 -/

theorem push_max {t t' : DynamicTable} {h : Header} (hp : t.push h = .ok t') :
    t'.maxTableSize = t.maxTableSize := by
  unfold DynamicTable.push at hp
  obtain ⟨⟨es, size⟩, -, h2⟩ := Res.bind_eq_ok.1 hp
  rw [← Res.ok.inj h2]

theorem updateTableSize_max {t t' : DynamicTable} {n : Nat} (hp : t.updateTableSize n = .ok t') :
    t'.maxTableSize = n := by
  unfold DynamicTable.updateTableSize at hp
  obtain ⟨⟨es, size⟩, -, h2⟩ := Res.bind_eq_ok.1 hp
  rw [← Res.ok.inj h2]

theorem updateDynamicTable_max (block : HeaderBlock) (t t' : DynamicTable)
    (h : updateDynamicTable block t = (.ok (), t')) :
    t'.maxTableSize = ((sizeUpdates block).getLast?).getD t.maxTableSize := by
  induction block generalizing t with
  | nil => cases h; rfl
  | cons e es ih =>
    unfold updateDynamicTable at h
    cases he : updateDynamicTableEntry e t with
    | ok u =>
      rw [he] at h
      have h1 := ih u h
      unfold updateDynamicTableEntry at he
      rcases e with ⟨p, v⟩
      have skip : p ≠ .sizeUpdate → u.maxTableSize = t.maxTableSize →
          t'.maxTableSize = (sizeUpdates (⟨p, v⟩ :: es)).getLast?.getD t.maxTableSize := by
        intro hp hu
        rw [h1, hu]
        have : sizeUpdates (⟨p, v⟩ :: es) = sizeUpdates es := by
          unfold sizeUpdates
          rw [List.filterMap_cons]
          cases p <;> first | rfl | exact absurd rfl hp
        rw [this]
      by_cases hi : p = .incrementalIndexing
      · rw [if_pos hi] at he
        obtain ⟨x, -, he⟩ := Res.bind_eq_ok.1 he
        exact skip (by rw [hi]; decide) (push_max he)
      · rw [if_neg hi] at he
        by_cases hs : p = .sizeUpdate
        · rw [if_pos hs] at he
          obtain ⟨n, hn, he⟩ := Res.bind_eq_ok.1 he
          have hm := updateTableSize_max he
          cases v with
          | header x => cases hn
          | maxSize m =>
            obtain rfl := Res.ok.inj hn
            rw [h1, hm, hs]
            have : sizeUpdates (⟨.sizeUpdate, .maxSize m⟩ :: es) = m :: sizeUpdates es := rfl
            rw [this, List.getLast?_cons]
            rfl
        · rw [if_neg hs] at he
          cases he
          exact skip hs rfl
    | throw e => rw [he] at h; cases h
    | ub k => rw [he] at h; cases h
    | diverge => rw [he] at h; cases h

theorem received_update [Platform] {c c' : Client} {f : Frame} (h : c.receiveFrame = (.ok f, c')) :
    ∃ fh raw, Built fh raw c.responseTable f ∧
      updateDynamicTableFrame f c.responseTable = (.ok (), c'.responseTable) := by
  obtain ⟨reads', -, ⟨k, -, -, e⟩ | ⟨fh, -, -, -, -, e⟩⟩ := receiveFrame_cases c
  · rw [e] at h; cases h
  · rw [e, processFrame_eq] at h
    have h1 : (processTable fh ((c.conn.incoming.drop 9).take (beValue (c.conn.incoming.take 3)))
        c.responseTable) = (.ok f, c'.responseTable) := by
      rw [Prod.mk.injEq] at h
      rw [← h.2]
      exact Prod.ext h.1 rfl
    clear h e
    unfold processTable at h1
    cases hb : buildFrame fh ((c.conn.incoming.drop 9).take (beValue (c.conn.incoming.take 3)))
        c.responseTable with
    | throw e => rw [hb] at h1; cases h1
    | ub k => rw [hb] at h1; cases h1
    | diverge => rw [hb] at h1; cases h1
    | ok g =>
      rw [hb] at h1
      simp only at h1
      rcases hu : updateDynamicTableFrame g c.responseTable with ⟨_ | e | k | _, t'⟩
      · rw [hu] at h1
        simp only [Prod.mk.injEq, Res.ok.injEq] at h1
        obtain ⟨rfl, rfl⟩ := h1
        exact ⟨fh, _, built_of_ok hb, hu⟩
      · rw [hu] at h1; cases h1
      · rw [hu] at h1; cases h1
      · rw [hu] at h1; cases h1

/-- C102. What a received frame does to the maximum of the response table: it becomes the last size
the frame names, whatever that is, and stays as it was if it names none. -/
theorem C102_obeys [Platform] (c c' : Client) (f : Frame) (h : c.receiveFrame = (.ok f, c')) :
    c'.responseTable.maxTableSize = (sizesNamed f).getLast?.getD c.responseTable.maxTableSize := by
  obtain ⟨fh, raw, hb, hu⟩ := received_update h
  rw [updateFrame_built hb] at hu
  generalize c'.responseTable = t' at hu
  cases f with
  | headers x => exact updateDynamicTable_max _ _ _ hu
  | pushPromise x => exact updateDynamicTable_max _ _ _ hu
  | continuation x => exact updateDynamicTable_max _ _ _ hu
  | settings x =>
    simp only at hu
    show _ = ((x.payload.lookup 1).map UInt32.toNat).toList.getLast?.getD _
    cases hl : x.payload.lookup 1 with
    | none => rw [hl] at hu; cases hu; rfl
    | some n =>
      rw [hl] at hu
      simp only at hu
      cases ht : c.responseTable.updateTableSize n.toNat with
      | ok u => rw [ht] at hu; cases hu; exact updateTableSize_max ht
      | throw e => rw [ht] at hu; cases hu
      | ub k => rw [ht] at hu; cases hu
      | diverge => rw [ht] at hu; cases hu
  | raw x => cases hu
  | data x => cases hu; rfl
  | priority x => cases hu; rfl
  | rstStream x => cases hu; rfl
  | ping x => cases hu; rfl
  | goaway x => cases hu; rfl
  | windowUpdate x => cases hu; rfl

/-- C102, the part that holds: if no frame received names a size above `limit`, the response table
never takes more than `limit` octets (as RFC 7541 4.1 counts them), whatever is called and whatever
the peer sends. Missing: peers that name larger sizes, which RFC 7541 6.3 tells the client to treat
as an error; see below. -/
theorem C102_limit_partial [Platform] (conn : Conn) (ops : List Op) (c : Client) (limit : Nat)
    (hl : 4096 ≤ limit) (hsmall : ∀ op ∈ ops, op.Small) (h : History (Client.new conn) ops c)
    (hn : ∀ f, ∀ op, (op, Outcome.frame (.ok f)) ∈ (runCalls (Client.new conn) ops).1 →
      ∀ n ∈ sizesNamed f, n ≤ limit) :
    c.responseTable.maxTableSize ≤ limit ∧ tableSize c.responseTable.entries ≤ limit := by
  obtain ⟨-, ha1, ha2⟩ := C63_accounting conn ops c hsmall h
  have key : ∀ (d d' : Client) (ops : List Op), History d ops d' →
      (∀ f, ∀ op, (op, Outcome.frame (.ok f)) ∈ (runCalls d ops).1 → ∀ n ∈ sizesNamed f, n ≤ limit) →
      d.responseTable.maxTableSize ≤ limit → d'.responseTable.maxTableSize ≤ limit := by
    intro d d' ops h
    induction h with
    | nil c => intro _ h; exact h
    | cons c op ops c' hs _ ih =>
      intro hn hm
      have hcall : (op.run c).2 = (op.call c).2 := by cases op <;> rfl
      refine ih (fun f o ho => hn f o ?_) ?_
      · rw [hcall] at ho
        exact List.mem_cons_of_mem _ ho
      · cases op with
        | sendPreface => exact hm
        | sendRaw data => exact hm
        | receiveRaw n => exact hm
        | sendFrame f =>
          show (c.sendFrame f).2.responseTable.maxTableSize ≤ _
          rw [(C59_send c f).2.1]
          exact hm
        | updateRequestBlock b => exact hm
        | updateRequestSize n =>
          have : (c.updateRequestTableSize n).2.responseTable = c.responseTable := by
            unfold Client.updateRequestTableSize
            cases c.requestTable.updateTableSize n <;> rfl
          show (c.updateRequestTableSize n).2.responseTable.maxTableSize ≤ _
          rw [this]
          exact hm
        | receiveFrame =>
          show c.receiveFrame.2.responseTable.maxTableSize ≤ _
          rcases hr : c.receiveFrame with ⟨f | e | k | _, c1⟩
          · rw [C102_obeys c c1 f hr]
            cases hg : (sizesNamed f).getLast? with
            | none => exact hm
            | some n =>
              refine hn f .receiveFrame ?_ n (List.mem_of_getLast? hg)
              show _ ∈ (Op.receiveFrame, Outcome.frame c.receiveFrame.1) :: _
              rw [hr]
              exact List.mem_cons_self
          · have := (C60_throw_keeps_tables c e (by rw [hr])).2
            rw [hr] at this
            rw [this]
            exact hm
          · unfold Op.run at hs
            simp only [hr] at hs
            exact hs.elim
          · unfold Op.run at hs
            simp only [hr] at hs
            exact hs.elim
  have := key _ _ _ h hn hl
  exact ⟨this, by omega⟩

/-- Non-vacuity of C102: a size update to 100, an insertion, a SETTINGS frame that names 4096 and one
that names nothing: the maximum goes from 4096 to 100 and back, and the limit 4096 is kept. -/
example [P : Platform] :
    let c := Client.new ⟨[0, 0, 7, 1, 4, 0, 0, 0, 1, 0x3f, 0x45, 0x40, 1, 97, 1, 98] ++
      [0, 0, 6, 4, 0, 0, 0, 0, 0, 0, 1, 0, 0, 16, 0] ++ [0, 0, 0, 4, 0, 0, 0, 0, 0], [],
      List.replicate 9 9, []⟩
    let ops := [Op.receiveFrame, Op.receiveFrame, Op.receiveFrame]
    ((runCalls c (ops.take 1)).2.responseTable.maxTableSize = 100 ∧
      (runCalls c (ops.take 2)).2.responseTable.maxTableSize = 4096 ∧
      (runCalls c ops).2.responseTable.entries = [([97], [98])] ∧
      ((runCalls c ops).1.map fun r => match r.2 with
        | .frame (.ok f) => sizesNamed f
        | _ => [0]) = [[100], [4096], []]) := by
  rcases P with ⟨_ | _, _ | _⟩ <;> decide +kernel

/-- A peer's HEADERS frame on stream 1: a size update to 2^30, and a literal with incremental indexing,
`a` and 4097 times `b`. -/
def greedy : Bytes :=
  let block := [0x3f, 0xe1, 0xff, 0xff, 0xff, 0x03] ++ [0x40, 1, 97, 0x7f, 0x82, 0x1f] ++
    List.replicate 4097 98
  [0, UInt8.ofNat (block.length / 256), UInt8.ofNat block.length, 1, 4, 0, 0, 0, 1] ++ block

/-- C102 is false of the code: a new client has announced no size, so 4096 is the limit, but the
frame is delivered and the table then holds 4130 octets of at most 2^30. -/
theorem C102_larger_violated [P : Platform] :
    let c := Client.new ⟨greedy, [], [9, 5000], []⟩
    (c.receiveFrame.1.bind fun f => .ok (sizesNamed f)) = .ok [2 ^ 30] ∧
    c.receiveFrame.2.responseTable.maxTableSize = 2 ^ 30 ∧
    tableSize c.receiveFrame.2.responseTable.entries = 4130 := by
  rcases P with ⟨_ | _, _ | _⟩ <;> decide +kernel

end Mh2c
