/-
C85 and C91, negations: connections on which what is received is not what was meant.
-/
import Verif.Props.ServerMeans
import Verif.Props.ClientStream

namespace Mh2c

open Rfc

/-! ## C91 -/

/-- A request as a user makes it: a HEADERS frame built for the request table, sent, and its block
reported through `update_request_dynamic_table`. -/
inductive Requests [Platform] : Client → List HeaderBlock → Client → Prop
  | nil (c : Client) : Requests c [] c
  | cons (c c1 c2 c' : Client) (sid : UInt32) (block : HeaderBlock) (blocks : List HeaderBlock)
      (f : HeadersFrame)
      (hf : HeadersFrame.new 5 sid block .none c.requestTable [] .zero = .ok f)
      (h1 : c.sendFrame (.headers f) = (.ok (), c1))
      (h2 : c1.updateRequestDynamicTable block = (.ok (), c2)) (hr : Requests c2 blocks c') :
      Requests c (block :: blocks) c'

/-- Three requests: `a: 1` and `b: 2`, then `a: 1` twice, every header to be indexed. -/
def threeRequests : List HeaderBlock :=
  [[⟨.incrementalIndexing, .header (bstr "a", bstr "1")⟩,
    ⟨.incrementalIndexing, .header (bstr "b", bstr "2")⟩],
   [⟨.incrementalIndexing, .header (bstr "a", bstr "1")⟩],
   [⟨.incrementalIndexing, .header (bstr "a", bstr "1")⟩]]

/-- What the three requests look like on the wire. -/
def threeWire : Bytes :=
  frameOctets 1 5 (1 : UInt32).toNat [0x40, 1, 97, 1, 49, 0x40, 1, 98, 1, 50] ++ ([] ++
    (frameOctets 1 5 (3 : UInt32).toNat [0xbf] ++ ([] ++
      (frameOctets 1 5 (5 : UInt32).toNat [0xbe] ++ ([] ++ [])))))

/-- The server's table after them. -/
def baPeer : Table := ⟨[(bstr "b", bstr "2"), (bstr "a", bstr "1")], 4096⟩

/-- The client after it has sent the preface and `wire`. -/
def stage (wire : Bytes) (writes : Nat) (table : DynamicTable) : Client :=
  ⟨⟨[], ascii "PRI * HTTP/2.0\r\n\r\nSM\r\n\r\n" ++ wire, [], List.replicate writes 100⟩, table,
    .default⟩

/-- C91, negation. A new client over a transport that takes everything makes three requests with the
headers `a: 1` and `b: 2`, `a: 1`, and `a: 1`. There is just one way for a server to read them, and
in it the third has the header `b: 2`. -/
theorem C91_wrong_header_violated [Platform] : ∃ conn c c' wire seen t,
    (Client.new conn).sendConnectionPreface = (.ok (), c) ∧ Requests c threeRequests c' ∧
    c'.conn.sent = ascii "PRI * HTTP/2.0\r\n\r\nSM\r\n\r\n" ++ wire ∧
    ServerReads ⟨[], 4096⟩ wire seen t ∧
    (∀ seen2 t2, ServerReads ⟨[], 4096⟩ wire seen2 t2 → seen2 = seen) ∧
    seen.map (·.fields) = [[(bstr "a", bstr "1"), (bstr "b", bstr "2")], [(bstr "a", bstr "1")],
      [(bstr "b", bstr "2")]] := by
  have hread : ∃ seen, ServerReads ⟨[], 4096⟩ threeWire seen baPeer ∧
      seen.map (·.fields) = [[(bstr "a", bstr "1"), (bstr "b", bstr "2")], [(bstr "a", bstr "1")],
        [(bstr "b", bstr "2")]] := by
    refine ⟨_, .headers _ baPeer _ 1 5 1 _ _ [] [] _
      [.incremental (bstr "a", bstr "1"), .incremental (bstr "b", bstr "2")] _ (by decide) (by decide)
      (by decide) (.headers _ _ (by decide) (.plain _ (by decide)))
      (.done _ (by unfold hasEndHeaders; decide)) ?_
      (.headers _ baPeer _ 1 5 3 _ _ [] [] _ [.indexed (bstr "a", bstr "1")] _ (by decide) (by decide)
        (by decide) (.headers _ _ (by decide) (.plain _ (by decide)))
        (.done _ (by unfold hasEndHeaders; decide)) ?_
        (.headers _ baPeer _ 1 5 5 _ _ [] [] _ [.indexed (bstr "b", bstr "2")] _ (by decide) (by decide)
          (by decide) (.headers _ _ (by decide) (.plain _ (by decide)))
          (.done _ (by unfold hasEndHeaders; decide)) ?_ (.nil _))), rfl⟩
    · refine .cons _ _ _ [0x40, 1, 98, 1, 50] _ _ (.incremental _ _ _ _ (by decide) ?_)
        (.cons _ _ _ [] _ _ (.incremental _ _ _ _ (by decide) ?_) ?_)
      · exact .newName _ [1, 97, 1, 49, 0x40, 1, 98, 1, 50] [1, 49, 0x40, 1, 98, 1, 50] [0x40, 1, 98, 1, 50]
          _ _ (by decide) (.plain 1 _ [97] _ (by decide) (by decide))
          (.plain 1 _ [49] _ (by decide) (by decide))
      · exact .newName _ [1, 98, 1, 50] [1, 50] [] _ _ (by decide)
          (.plain 1 _ [98] _ (by decide) (by decide)) (.plain 1 _ [50] _ (by decide) (by decide))
      · exact .nil _
    · exact .cons _ _ _ [] _ _ (.indexed _ _ _ 63 _ (by decide) (by decide) (by decide)) (.nil _)
    · exact .cons _ _ _ [] _ _ (.indexed _ _ _ 62 _ (by decide) (by decide) (by decide)) (.nil _)
  obtain ⟨seen, hr, hseen⟩ := hread
  have key : ∀ p : Platform, (Client.new ⟨[], [], [], [100, 100, 100, 100]⟩).sendConnectionPreface =
        (.ok (), stage [] 3 .default) ∧
      Requests (stage [] 3 .default) threeRequests (stage threeWire 0
        ⟨[(bstr "a", bstr "1"), (bstr "a", bstr "1"), (bstr "b", bstr "2"), (bstr "a", bstr "1")], 136,
          4096⟩) := by
    intro p
    refine ⟨by decide +kernel, ?_⟩
    refine .cons _ (stage (threeWire.take 19) 2 .default)
      (stage (threeWire.take 19) 2 ⟨[(bstr "b", bstr "2"), (bstr "a", bstr "1")], 68, 4096⟩) _ 1 _ _
      ⟨[0x40, 1, 97, 1, 49, 0x40, 1, 98, 1, 50], ⟨10, 1, 5, 0, 1⟩, [], .zero,
        [⟨.incrementalIndexing, .header (bstr "a", bstr "1")⟩,
          ⟨.incrementalIndexing, .header (bstr "b", bstr "2")⟩]⟩ ?_ ?_ ?_
      (.cons _ (stage (threeWire.take 29) 1 ⟨[(bstr "b", bstr "2"), (bstr "a", bstr "1")], 68, 4096⟩)
        (stage (threeWire.take 29) 1
          ⟨[(bstr "a", bstr "1"), (bstr "b", bstr "2"), (bstr "a", bstr "1")], 102, 4096⟩) _ 3 _ _
        ⟨[0xbf], ⟨1, 1, 5, 0, 3⟩, [], .zero,
          [⟨.incrementalIndexing, .header (bstr "a", bstr "1")⟩]⟩ ?_ ?_ ?_
        (.cons _ (stage threeWire 0
          ⟨[(bstr "a", bstr "1"), (bstr "b", bstr "2"), (bstr "a", bstr "1")], 102, 4096⟩) _ _ 5 _ _
        ⟨[0xbe], ⟨1, 1, 5, 0, 5⟩, [], .zero,
          [⟨.incrementalIndexing, .header (bstr "a", bstr "1")⟩]⟩ ?_ ?_ ?_ (.nil _)))
    all_goals rcases p with ⟨a, b⟩
    all_goals (cases a <;> cases b <;> decide +kernel)
  exact ⟨⟨[], [], [], [100, 100, 100, 100]⟩, _, _, threeWire, seen, baPeer, (key x86).1, (key inferInstance).2, rfl,
    hr, fun seen2 t2 h2 => (reads_unique h2 hr).1, hseen⟩

/-! ## C85 -/

/-- C85, negation. A server sends one HEADERS frame that inserts `k: v` and then refers to it. A new
client, whatever the transport does and whatever follows, does not receive these headers. -/
theorem C85_reference_violated [Platform] : ∃ wire out t', ServerMeans ⟨[], 4096⟩ wire out t' ∧
    out.map (fun o => (o.type, o.headers)) = [(1, [(bstr "k", bstr "v"), (bstr "k", bstr "v")])] ∧
    ∀ (conn : Conn) (rest : Bytes), conn.incoming = wire ++ rest → Willing conn.reads wire.length →
      ¬ ∃ frames c', Received (Client.new conn) frames c' ∧
        frames.map (fun f => (f.kind, f.headerList)) =
          [(some 1, [(bstr "k", bstr "v"), (bstr "k", bstr "v")])] := by
  obtain ⟨h1, h2⟩ := insertion_steps ⟨[], 4096⟩ rfl rfl
  have hb : ShortBlock ⟨[], 4096⟩ [0x40, 1, 107, 1, 118, 0xbe]
      [⟨⟨[], 4096⟩, [0x40, 1, 107, 1, 118, 0xbe], .incremental ([107], [118])⟩,
       ⟨⟨[([107], [118])], 4096⟩, [0xbe], .indexed ([107], [118])⟩] ⟨[([107], [118])], 4096⟩ := by
    refine .cons _ _ _ [0xbe] _ _ (.incremental _ _ _ _ (by decide) ?_) h2
    exact .newName _ [1, 107, 1, 118, 0xbe] [1, 118, 0xbe] [0xbe] _ _ (by decide)
      (.plain 1 _ [107] _ (by decide) (by decide)) (.plain 1 _ [118] _ (by decide) (by decide))
  have hm := ServerMeans.block _ _ _ 1 4 1 _ _ _ _ _ (by decide) (by decide)
    (.headers _ _ (by decide) (.plain _ (by decide))) hb ⟨by decide, trivial⟩
    (by
      intro s hs f hf
      simp only [List.mem_cons, List.not_mem_nil, or_false] at hs
      rcases hs with rfl | rfl
      · obtain rfl := Item.incremental.inj hf
        decide
      · cases hf)
    (by
      intro s hs
      simp only [List.mem_cons, List.not_mem_nil, or_false] at hs
      rcases hs with rfl | rfl
      · exact ⟨.inr (by decide), .inr (by decide)⟩
      · trivial)
    (.nil _)
  refine ⟨_, _, _, hm, rfl, ?_⟩
  intro conn rest hi hw h
  have hk := (C85_exact_partial conn _ rest _ _ hm hi hw).1 h
  have := hk _ (List.mem_singleton.2 rfl) _ (List.mem_cons_of_mem _ (List.mem_singleton.2 rfl))
  exact absurd (this.1 62 (by decide)) (by decide)

end Mh2c
