/-
C91: what a client sends over a whole connection is what a conforming server reads.
-/
import Verif.Props.HeaderRfc
import Verif.Spec.ClientStream
import Verif.Props.Wire
import Verif.Props.Client

namespace Mh2c

open Rfc DynamicTable

/-! ### Decoding what is followed by more -/

theorem StringAt.more {bs s rest : Bytes} (h : StringAt intDecode bs s rest) (x : Bytes) :
    StringAt intDecode (bs ++ x) s (rest ++ x) := by
  cases h with
  | plain b bs data rest hb hi =>
      exact .plain b (bs ++ x) s (rest ++ x) hb
        (by rw [← List.append_assoc]; exact intDecode_append hi x)
  | huffman b bs data s rest hb hi hs =>
      exact .huffman b (bs ++ x) data s (rest ++ x) hb
        (by rw [← List.append_assoc]; exact intDecode_append hi x) hs

theorem LiteralAt.more {get : Nat → Option Field} {n : Nat} {bs : Bytes} {f : Field} {rest : Bytes}
    (h : LiteralAt intDecode get n bs f rest) (x : Bytes) :
    LiteralAt intDecode get n (bs ++ x) f (rest ++ x) := by
  cases h with
  | indexedName _ rest1 i f v hi hf hv =>
      exact .indexedName _ _ _ i f v (intDecode_append hi x) hf (StringAt.more hv x)
  | newName _ rest1 rest2 n v hi hn hv =>
      exact .newName _ _ _ _ n v (intDecode_append hi x) (StringAt.more hn x) (StringAt.more hv x)

theorem ItemAt.more {get getName : Nat → Option Field} {bs : Bytes} {item : Item} {rest : Bytes}
    (h : ItemAt intDecode get getName bs item rest) (x : Bytes) :
    ItemAt intDecode get getName (bs ++ x) item (rest ++ x) := by
  cases h with
  | indexed b bs rest i f hb hi hf => exact .indexed b _ _ i f hb (intDecode_append hi x) hf
  | incremental b bs rest f hb hl => exact .incremental b _ _ f hb (LiteralAt.more hl x)
  | sizeUpdate b bs rest n hb hi => exact .sizeUpdate b _ _ n hb (intDecode_append hi x)
  | neverIndexed b bs rest f hb hl => exact .neverIndexed b _ _ f hb (LiteralAt.more hl x)
  | withoutIndexing b bs rest f hb hl => exact .withoutIndexing b _ _ f hb (LiteralAt.more hl x)

theorem BlockDecodes.append {t t1 t2 : Table} {a b : Bytes} {is js : List Item}
    (h1 : BlockDecodes t a is t1) (h2 : BlockDecodes t1 b js t2) :
    BlockDecodes t (a ++ b) (is ++ js) t2 := by
  induction h1 with
  | nil t => exact h2
  | cons t t' bs rest item items hi hr ih => exact .cons _ _ _ (rest ++ b) _ _ (ItemAt.more hi b) (ih h2)

/-! ### One frame of the client -/

theorem sendFrame_octets [Platform] {c c1 : Client} {f : Frame} {w : Bytes}
    (hw : f.serialize = .ok w) (h : c.sendFrame f = (.ok (), c1)) :
    c1.conn.sent = c.conn.sent ++ w ∧ c1.requestTable = c.requestTable := by
  unfold Client.sendFrame at h
  rw [hw] at h
  simp only at h
  obtain ⟨sent, writes, e1, -, ⟨e2, e3⟩ | ⟨e2, -⟩⟩ := C55_send c w
  · rw [h] at e1
    simp only at e1
    rw [e1]
    exact ⟨e3, rfl⟩
  · rw [h] at e2; cases e2

theorem headers_carries {flags : UInt8} {p : PriorityOption} {enc padding : Bytes}
    (hp : padding.length ≤ 255) :
    CarriesBlock flags 1 (withPadding flags (withPriority flags p enc) padding) enc := by
  have content : ∀ x, Content flags (withPadding flags x padding) x := by
    intro x
    unfold withPadding
    split
    · rename_i h
      unfold padded
      exact .padded _ _ _ h (by simp; omega)
    · exact .plain _ (by assumption)
  by_cases h : hasPriority flags
  · unfold withPriority
    rw [if_pos h]
    exact .headersPriority _ _ _ h (content _) (by simp [priorityOctets, bitAnd31])
  · unfold withPriority
    rw [if_neg h]
    exact .headers _ _ h (content _)

/-- Reporting a good block. -/
theorem update_step {c c' : Client} {table' : DynamicTable} {block : HeaderBlock}
    (hu : updateDynamicTable block c.requestTable = (.ok (), table'))
    (h : c.updateRequestDynamicTable block = (.ok (), c')) :
    c'.requestTable = table' ∧ c'.conn = c.conn := by
  unfold Client.updateRequestDynamicTable at h
  rw [hu] at h
  simp only [Prod.mk.injEq, true_and] at h
  rw [← h]
  exact ⟨rfl, rfl⟩

theorem receiving_keeps [Platform] {op : Op} (h : ¬ op.Sending) (c : Client) :
    (op.run c).2.requestTable = c.requestTable ∧ (op.run c).2.conn.sent = c.conn.sent := by
  cases op with
  | receiveFrame => exact ⟨(C59_receive c).1, (C59_receive c).2.1⟩
  | receiveRaw n => exact ⟨rfl, rfl⟩
  | sendPreface => exact absurd trivial h
  | sendRaw data => exact absurd trivial h
  | sendFrame f => exact absurd trivial h
  | updateRequestBlock b => exact absurd trivial h
  | updateRequestSize n => exact absurd trivial h

theorem continues_step [Platform] {sid : UInt32} {flags : UInt8}
    {c c' : Client} {hs : List Header} (h : ClientContinues sid flags c hs c')
    (hi : c.requestTable.Inv) :
    ∃ wire block items, c'.conn.sent = c.conn.sent ++ wire ∧ Continues sid flags wire block ∧
      BlockDecodes c.requestTable.toRfc block items c'.requestTable.toRfc ∧ fields items = hs ∧
      c'.requestTable.Inv := by
  induction h with
  | done flags c h => exact ⟨[], [], [], by simp, .done _ h, .nil _, rfl, hi⟩
  | more flags flags' c c1 c2 c' block mode f hs h good hf hl h1 h2 hr ih =>
      obtain ⟨bytes, items, p', t', r1, r2, r3, r4, r5, r6⟩ := round hi good mode
      have hf' : f = ⟨bytes, ⟨castToFhLength bytes.length, 9, flags', 0, sid⟩, block⟩ := by
        unfold ContinuationFrame.new at hf
        rw [r1] at hf
        exact (Res.ok.inj hf).symm
      subst hf'
      have hw : (Frame.continuation ⟨bytes, ⟨castToFhLength bytes.length, 9, flags', 0, sid⟩,
          block⟩).serialize = .ok (frameOctets 9 flags' sid.toNat bytes) := by
        show ContinuationFrame.serialize _ = _
        unfold ContinuationFrame.serialize
        simp only
        rw [header_frame _ _ _ _ hl]
      obtain ⟨s1, s2⟩ := sendFrame_octets hw h1
      obtain ⟨u1, u2⟩ := update_step (by rw [s2]; exact r3) h2
      obtain ⟨wire, block2, items2, i1, i2, i3, i4, i5⟩ := ih (by rw [u1]; exact r4)
      rw [u1, r5] at i3
      refine ⟨_, _, items ++ items2, ?_, .more _ _ bytes wire block2 h hl i2, BlockDecodes.append r2 i3, ?_, i5⟩
      · rw [i1, u2, s1, List.append_assoc]
      · unfold fields at *
        rw [List.filterMap_append, i4, r6]
  | receive flags c c' op hs hop hr ih =>
      obtain ⟨k1, k2⟩ := receiving_keeps hop c
      rw [k1, k2] at ih
      exact ih hi

theorem sends_read [Platform] {c c' : Client} {seen : List Seen} (h : ClientSends c seen c')
    (hi : c.requestTable.Inv) :
    ∃ wire, c'.conn.sent = c.conn.sent ++ wire ∧
      ServerReads c.requestTable.toRfc wire seen c'.requestTable.toRfc := by
  induction h with
  | nil c => exact ⟨[], by simp, .nil _⟩
  | headers c c1 c2 c3 c' flags sid block mode padding priority f hs seen good hsid hp he hd hf hl
      h1 h2 h3 hr ih =>
      obtain ⟨bytes, items, p', t', r1, r2, r3, r4, r5, r6⟩ := round hi good mode
      have e1 := headers_encoded (flags := flags) (padding := padding) (fun _ => he) (fun _ => hd) r1
      have hf' : f = ⟨withPadding flags (withPriority flags priority bytes) padding,
          ⟨castToFhLength (withPadding flags (withPriority flags priority bytes) padding).length, 1,
            flags, 0, sid⟩, padding, priority, block⟩ := by
        unfold HeadersFrame.new at hf
        rw [e1] at hf
        exact (Res.ok.inj hf).symm
      subst hf'
      simp only at hl
      generalize hpl : withPadding flags (withPriority flags priority bytes) padding = payload at *
      have hw : (Frame.headers ⟨payload, ⟨castToFhLength payload.length, 1, flags, 0, sid⟩, padding,
          priority, block⟩).serialize = .ok (frameOctets 1 flags sid.toNat payload) := by
        show HeadersFrame.serialize _ = _
        unfold HeadersFrame.serialize
        simp only
        rw [header_frame _ _ _ _ hl]
      obtain ⟨s1, s2⟩ := sendFrame_octets hw h1
      obtain ⟨u1, u2⟩ := update_step (by rw [s2]; exact r3) h2
      obtain ⟨wire, block2, items2, i1, i2, i3, i4, i5⟩ := continues_step h3 (by rw [u1]; exact r4)
      rw [u1, r5] at i3
      obtain ⟨rest, j1, j2⟩ := ih i5
      refine ⟨frameOctets 1 flags sid.toNat payload ++ (wire ++ rest), ?_, ?_⟩
      rotate_left
      · have hfields : headersOf block ++ hs = fields (items ++ items2) := by
          unfold fields at *
          rw [List.filterMap_append, i4, r6]
        rw [hfields]
        exact .headers _ _ _ _ _ _ payload bytes wire block2 rest _ _ (by decide) hsid hl
          (hpl ▸ headers_carries hp) i2 (BlockDecodes.append r2 i3) j2
      · rw [j1, i1, u2, s1, List.append_assoc, List.append_assoc]
  | other c c1 c' f type flags sid payload seen hb hs hl hw h1 hr ih =>
      obtain ⟨s1, s2⟩ := sendFrame_octets hw h1
      obtain ⟨rest, j1, j2⟩ := ih (by rw [s2]; exact hi)
      rw [s2] at j2
      exact ⟨_, by rw [j1, s1, List.append_assoc], .other _ _ _ _ _ _ _ _ hb hs hl j2⟩
  | receive c c' op seen hop hr ih =>
      obtain ⟨k1, k2⟩ := receiving_keeps hop c
      rw [k1, k2] at ih
      exact ih hi

/-! ### A server reads a stream in one way only -/

theorem content_iff {flags : UInt8} {raw a : Bytes} (h : Content flags raw a) :
    (¬ hasPadded flags ∧ raw = a) ∨ (hasPadded flags ∧ ∃ pad padding, raw = pad :: (a ++ padding) ∧
      padding.length = pad.toNat) := by
  cases h with
  | plain _ h => exact Or.inl ⟨h, rfl⟩
  | padded pad _ padding h hl => exact Or.inr ⟨h, pad, padding, rfl, hl⟩

theorem content_unique {flags : UInt8} {raw a b : Bytes} (h1 : Content flags raw a)
    (h2 : Content flags raw b) : a = b := by
  rcases content_iff h1 with ⟨h, rfl⟩ | ⟨h, pad, padding, e, hl⟩
  · rcases content_iff h2 with ⟨-, e'⟩ | ⟨h', -⟩
    · exact e'
    · exact absurd h' h
  · rcases content_iff h2 with ⟨h', -⟩ | ⟨-, pad', padding', e', hl'⟩
    · exact absurd h h'
    · rw [e] at e'
      injection e' with e1 e2
      subst e1
      exact (List.append_inj' e2 (by omega)).1

theorem carries_unique {flags type : UInt8} {raw a b : Bytes} (h1 : CarriesBlock flags type raw a)
    (h2 : CarriesBlock flags type raw b) : a = b := by
  cases h1 with
  | headers _ _ hp h =>
      cases h2 with
      | headers _ _ _ h' => exact content_unique h h'
      | headersPriority _ _ _ hp' => exact absurd hp' hp
  | headersPriority _ p _ hp h hl =>
      cases h2 with
      | headers _ _ hp' => exact absurd hp hp'
      | headersPriority _ p' _ _ h' hl' =>
          exact (List.append_inj (content_unique h h') (by omega)).2
  | pushPromise _ p _ h hl =>
      cases h2 with
      | pushPromise _ p' _ h' hl' => exact (List.append_inj (content_unique h h') (by omega)).2
  | continuation => cases h2; rfl

theorem continues_unique {sid : UInt32} (hs : sid.toNat < 2 ^ 31) {flags : UInt8}
    {w1 w2 b1 b2 r1 r2 : Bytes} (h1 : Continues sid flags w1 b1) (h2 : Continues sid flags w2 b2)
    (h : w1 ++ r1 = w2 ++ r2) : b1 = b2 ∧ r1 = r2 := by
  induction h1 generalizing w2 b2 with
  | done flags he =>
      cases h2 with
      | done => exact ⟨rfl, h⟩
      | more _ _ _ _ _ hn => exact absurd he hn
  | more flags flags' fragment wire block hn hl hr ih =>
      cases h2 with
      | done _ he => exact absurd he hn
      | more _ flags2 fragment2 wire2 block2 _ hl2 hr2 =>
          rw [List.append_assoc, List.append_assoc] at h
          obtain ⟨-, rfl, -, rfl, h'⟩ := frameOctets_inj hl hl2 hs hs h
          obtain ⟨rfl, h''⟩ := ih hr2 h'
          exact ⟨rfl, h''⟩

theorem reads_unique {t t1 t2 : Table} {wire : Bytes} {s1 s2 : List Seen}
    (h1 : ServerReads t wire s1 t1) (h2 : ServerReads t wire s2 t2) : s1 = s2 ∧ t1 = t2 := by
  have nonempty : ∀ (ty fl : UInt8) (sid : UInt32) (p r : Bytes), frameOctets ty fl sid.toNat p ++ r ≠ [] := by
    intro ty fl sid p r h
    have := congrArg List.length h
    simp [frameOctets] at this
  induction h1 generalizing s2 t2 with
  | nil t =>
      generalize hw : ([] : Bytes) = w at h2
      cases h2 with
      | nil => exact ⟨rfl, rfl⟩
      | headers => exact absurd hw.symm (nonempty _ _ _ _ _)
      | other => exact absurd hw.symm (nonempty _ _ _ _ _)
  | headers t t1 t' type flags sid payload fragment wire block rest items seen ht hs hl hc hm hd hr ih =>
      generalize hw : frameOctets type flags sid.toNat payload ++ (wire ++ rest) = w at h2
      cases h2 with
      | nil => exact absurd hw (nonempty _ _ _ _ _)
      | headers _ t1' _ type' flags' sid' payload' fragment' wire' block' rest' items' seen' ht' hs' hl' hc'
          hm' hd' hr' =>
          obtain ⟨rfl, rfl, rfl, rfl, h⟩ := frameOctets_inj hl hl' hs hs' hw
          obtain rfl := carries_unique hc hc'
          obtain ⟨rfl, rfl⟩ := continues_unique hs hm hm' h
          obtain ⟨rfl, rfl⟩ := BlockDecodes.unique hd hd'
          obtain ⟨rfl, rfl⟩ := ih hr'
          exact ⟨rfl, rfl⟩
      | other _ _ type' flags' sid' payload' rest' seen' hb' hs' hl' hr' =>
          obtain ⟨rfl, -⟩ := frameOctets_inj hl hl' hs hs' hw
          exact absurd (by cases hc <;> decide) hb'
  | other t t' type flags sid payload rest seen hb hs hl hr ih =>
      generalize hw : frameOctets type flags sid.toNat payload ++ rest = w at h2
      cases h2 with
      | nil => exact absurd hw (nonempty _ _ _ _ _)
      | headers _ t1' _ type' flags' sid' payload' fragment' wire' block' rest' items' seen' ht' hs' hl' hc' =>
          obtain ⟨rfl, -⟩ := frameOctets_inj hl hl' hs hs' hw
          exact absurd (by cases hc' <;> decide) hb
      | other _ _ type' flags' sid' payload' rest' seen' hb' hs' hl' hr' =>
          obtain ⟨rfl, rfl, rfl, rfl, rfl⟩ := frameOctets_inj hl hl' hs hs' hw
          obtain ⟨rfl, rfl⟩ := ih hr'
          exact ⟨rfl, rfl⟩

/-! ## C91 -/

/-- C91. A new client sends the preface and then requests and other frames, any number of them, and
receives in between whatever there is, or fails to. After the preface a server conforming to RFC 7540
and RFC 7541 reads exactly the frames and header lists the client meant, there is no other way to read
the octets, and the server's table ends up as the client's request table. Restricted to `GoodBlock`s,
for what C31 and C33 found wrong with others. Missing: other blocks, for which it is false (C31, C33). -/
theorem C91_server_reads_partial [Platform] (conn : Conn) (c c' : Client) (seen : List Seen)
    (hconn : conn.sent = []) (h0 : (Client.new conn).sendConnectionPreface = (.ok (), c))
    (h : ClientSends c seen c') :
    ∃ wire, c'.conn.sent = ascii "PRI * HTTP/2.0\r\n\r\nSM\r\n\r\n" ++ wire ∧
      ServerReads ⟨[], 4096⟩ wire seen ⟨c'.requestTable.entries, c'.requestTable.maxTableSize⟩ ∧
      ∀ seen2 t2, ServerReads ⟨[], 4096⟩ wire seen2 t2 → seen2 = seen := by
  obtain ⟨sent, writes, e1, -, ⟨e2, e3⟩ | ⟨e2, -⟩⟩ :=
    C55_send (Client.new conn) (ascii "PRI * HTTP/2.0\r\n\r\nSM\r\n\r\n")
  · have hc : c = { Client.new conn with conn := { conn with sent := sent, writes := writes } } := by
      have h2 : (Client.new conn).sendConnectionPreface.2 = c := congrArg Prod.snd h0
      rw [← h2]
      exact e1
    have hrt : c.requestTable = .default := by rw [hc]; rfl
    obtain ⟨wire, w1, w2⟩ := sends_read h (by rw [hrt]; exact inv_default)
    rw [hrt] at w2
    refine ⟨wire, ?_, w2, fun seen2 t2 h2 => (reads_unique h2 w2).1⟩
    rw [w1, hc, e3]
    simp only [Client.new, hconn, List.nil_append]
  · have := congrArg Prod.fst h0
    exact absurd (e2.symm.trans this) (by simp)

/-- A block that refers to what the block before it inserted. -/
theorem goodBlock_reference : GoodBlock ⟨[(bstr "b", bstr "2")], 34, 4096⟩
    [⟨.indexed, .header (bstr "b", bstr "2")⟩] := by
  have hg : InTables (bstr "b", bstr "2") ⟨[(bstr "b", bstr "2")], 34, 4096⟩ := Or.inr (by simp)
  constructor
  · intro e he
    rw [List.mem_singleton] at he
    subst he
    exact Or.inr ⟨by decide, _, rfl⟩
  · intro e he hp h hh
    rw [List.mem_singleton] at he
    subst he
    injection hh with hh; subst hh; exact hg
  · intro e he hp h hh
    rw [List.mem_singleton] at he
    subst he
    cases hp
  · intro e he h hh _
    rw [List.mem_singleton] at he
    subst he
    injection hh with hh; subst hh; decide
  · simp
  · intro items hi
    cases hi with
    | cons h1 h2 =>
        cases h2
        cases h1
        trivial

attribute [local instance] x86 in
/-- A padded HEADERS frame whose header block goes on in a CONTINUATION frame that refers to an entry
the first one inserted, a failed attempt to receive, then a RST_STREAM frame: the hypotheses of C91
are met. -/
example : ∃ c c', (Client.new ⟨[], [], [], [100, 100, 100, 100]⟩).sendConnectionPreface = (.ok (), c) ∧
    ClientSends c [⟨1, 8, 1, [(bstr ":method", bstr "GET"), (bstr "b", bstr "2"), (bstr "b", bstr "2")], []⟩,
      ⟨3, 0, 1, [], [0, 0, 0, 8]⟩] c' ∧
    c'.conn.sent.drop 24 = [0, 0, 9, 1, 8, 0, 0, 0, 1, 2, 0x82, 0x40, 1, 98, 1, 50, 0, 0] ++
      [0, 0, 1, 9, 4, 0, 0, 0, 1, 0xbe] ++ [0, 0, 4, 3, 0, 0, 0, 0, 1, 0, 0, 0, 8] := by
  refine ⟨_, _, Prod.ext (by decide +kernel) rfl, .headers _ _ _ _ _ 8 1
    [⟨.indexed, .header (bstr ":method", bstr "GET")⟩,
     ⟨.incrementalIndexing, .header (bstr "b", bstr "2")⟩] .none [0, 0] .zero
    ⟨[2, 0x82, 0x40, 1, 98, 1, 50, 0, 0], ⟨9, 1, 8, 0, 1⟩, [0, 0], .zero,
      [⟨.indexed, .header (bstr ":method", bstr "GET")⟩,
       ⟨.incrementalIndexing, .header (bstr "b", bstr "2")⟩]⟩ [(bstr "b", bstr "2")] _ ?_ (by decide)
    (by decide) (by decide) (by decide) ?_ (by decide) (Prod.ext ?_ rfl) (Prod.ext ?_ rfl)
    (.more 8 4 _ _ _ _ [⟨.indexed, .header (bstr "b", bstr "2")⟩] .none
      ⟨[0xbe], ⟨1, 9, 4, 0, 1⟩, [⟨.indexed, .header (bstr "b", bstr "2")⟩]⟩ [] (by unfold hasEndHeaders; decide) ?_ ?_
      (by decide) (Prod.ext ?_ rfl) (Prod.ext ?_ rfl) (.done 4 _ (by unfold hasEndHeaders; decide)))
    (.receive _ _ .receiveFrame _ id <| .other _ _ _ (.rstStream (RstStreamFrame.new 1 8)) 3 0 1 [0, 0, 0, 8] [] (by decide) (by decide)
      (by decide) (by decide +kernel) (Prod.ext ?_ rfl) (.nil _)), ?_⟩
  · exact goodBlock_sample
  all_goals first | decide +kernel | skip
  have key : ∀ t : DynamicTable, t = ⟨[(bstr "b", bstr "2")], 34, 4096⟩ →
      GoodBlock t [⟨.indexed, .header (bstr "b", bstr "2")⟩] := by
    rintro _ rfl
    exact goodBlock_reference
  exact key _ (by decide +kernel)

end Mh2c
