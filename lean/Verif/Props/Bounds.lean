/-
C86: how much a received header block can expand.
-/
import Verif.Proofs.Bounds
import Verif.Props.Client
import Verif.Props.ServerStream

namespace Mh2c

open Rfc

/-! ## C86 -/

/-- C86, one block. Every octet of a header block yields at most one representation and, in the
measure of RFC 7540 6.5.2 (name + value + 32 for each header), at most the size of the table (or
60, the largest static entry) and 8/5. -/
theorem C86_block [Platform] (raw : Bytes) (table : DynamicTable) (es : HeaderBlock)
    (h : decodeHeaderBlock raw table = .ok es) :
    es.length ≤ raw.length ∧
      5 * tableSize (headersOf es) ≤ raw.length * (5 * max (tableSize table.entries) 60 + 8) :=
  decodeHeaderBlock_le h

/-- C86, on a connection. Whatever happened before, a frame received delivers a header list bounded
by the announced length and the limit of the response table. -/
theorem C86_received [Platform] (conn : Conn) (ops : List Op) (c : Client)
    (hsmall : ∀ op ∈ ops, op.Small) (h : History (Client.new conn) ops c) (f : Frame)
    (hf : c.receiveFrame.1 = .ok f) :
    f.headerList.length ≤ announced c.conn.incoming ∧
      5 * tableSize f.headerList ≤
        announced c.conn.incoming * (5 * max c.responseTable.maxTableSize 60 + 8) := by
  obtain ⟨-, ha1, ha2⟩ := C63_accounting conn ops c hsmall h
  have hT : tableSize c.responseTable.entries ≤ c.responseTable.maxTableSize := by omega
  obtain ⟨reads', -, ⟨k, -, -, e⟩ | ⟨fh, -, -, -, -, e⟩⟩ := receiveFrame_cases c
  · rw [e] at hf; cases hf
  · rw [e, processFrame_eq] at hf
    replace hf : (processTable fh _ c.responseTable).1 = .ok f := hf
    have hlen : ((c.conn.incoming.drop 9).take (beValue (c.conn.incoming.take 3))).length ≤
        announced c.conn.incoming := by
      rw [List.length_take]; unfold announced; omega
    generalize (c.conn.incoming.drop 9).take (beValue (c.conn.incoming.take 3)) = raw at hf hlen
    have hb : Built fh raw c.responseTable f := by
      unfold processTable at hf
      split at hf
      · rename_i g hg
        split at hf <;> try cases hf
        exact built_of_ok hg
      all_goals cases hf
    generalize announced c.conn.incoming = L at *
    have key : ∀ (block : Bytes) (es : HeaderBlock), block.length ≤ raw.length →
        decodeHeaderBlock block c.responseTable = .ok es →
        (headersOf es).length ≤ L ∧
          5 * tableSize (headersOf es) ≤ L * (5 * max c.responseTable.maxTableSize 60 + 8) := by
      intro block es hl hd
      obtain ⟨h1, h2⟩ := decodeHeaderBlock_le hd
      refine ⟨?_, le_trans h2 (Nat.mul_le_mul (by omega) (by omega))⟩
      have : (headersOf es).length ≤ es.length := List.length_filterMap_le _ _
      omega
    have none : ([] : List Header).length ≤ L ∧
        5 * tableSize [] ≤ L * (5 * max c.responseTable.maxTableSize 60 + 8) := by
      simp [tableSize]
    cases hb with
    | headers _ g hg =>
        unfold HeadersFrame.ofRaw at hg
        obtain ⟨⟨pad, rest⟩, h1, hg⟩ := Res.bind_eq_ok.1 hg
        obtain ⟨⟨pri, rest'⟩, h2, hg⟩ := Res.bind_eq_ok.1 hg
        obtain ⟨block, h3, hg⟩ := Res.bind_eq_ok.1 hg
        obtain rfl := Res.ok.inj hg
        have := extractPadding_length h1
        have := extractPriority_length h2
        exact key _ _ (by omega) h3
    | pushPromise _ g hg =>
        unfold PushPromiseFrame.ofRaw at hg
        obtain ⟨⟨pad, rest⟩, h1, hg⟩ := Res.bind_eq_ok.1 hg
        obtain ⟨first, -, hg⟩ := Res.bind_eq_ok.1 hg
        obtain ⟨value, -, hg⟩ := Res.bind_eq_ok.1 hg
        obtain ⟨r, h2, hg⟩ := Res.bind_eq_ok.1 hg
        obtain ⟨-, rfl⟩ := eraseFirst_ok h2
        obtain ⟨block, h3, hg⟩ := Res.bind_eq_ok.1 hg
        obtain rfl := Res.ok.inj hg
        have := extractPadding_length h1
        exact key _ _ (by simp only [List.length_drop]; omega) h3
    | continuation _ g hg =>
        unfold ContinuationFrame.ofRaw at hg
        obtain ⟨block, h3, hg⟩ := Res.bind_eq_ok.1 hg
        obtain rfl := Res.ok.inj hg
        exact key _ _ (le_refl _) h3
    | _ => exact none

/-- C86, the bound is attained up to the constant: with a header `h` at the front of the table, a
block of `n` octets decodes to `n` copies of it. Nothing in the client limits the header list. -/
theorem C86_attained [Platform] (h : Header) (rest : List Header) (size maxSize n : Nat) :
    decodeHeaderBlock (List.replicate n 0xbe) ⟨h :: rest, size, maxSize⟩ =
        .ok (List.replicate n ⟨.indexed, .header h⟩) ∧
      tableSize (headersOf (List.replicate n ⟨.indexed, .header h⟩)) =
        n * (h.1.length + h.2.length + 32) := by
  constructor
  · induction n with
    | zero => exact decodeHeaderBlock_nil _
    | succ n ih =>
        rw [List.replicate_succ, decodeHeaderBlock_eq (by simp)]
        have h1 : decodeHeader (0xbe :: List.replicate n 0xbe) ⟨h :: rest, size, maxSize⟩ =
            .ok (⟨.indexed, .header h⟩, 1) := rfl
        rw [h1, Res.ok_bind]
        simp only [List.drop_succ_cons, List.drop_zero]
        rw [ih]
        rfl
  · induction n with
    | zero => simp [headersOf, tableSize]
    | succ n ih =>
        have hc : tableSize (headersOf (List.replicate (n + 1) ⟨.indexed, .header h⟩)) =
            entrySize h + tableSize (headersOf (List.replicate n ⟨.indexed, .header h⟩)) := by
          simp [headersOf, tableSize, List.replicate_succ]
        rw [hc, ih, Nat.add_mul]
        unfold entrySize
        omega

/-- Two octets, a table of one 36-octet entry: the list takes 72 octets. -/
example : tableSize (headersOf [⟨.indexed, .header (bstr "ab", bstr "cd")⟩,
    ⟨.indexed, .header (bstr "ab", bstr "cd")⟩]) = 72 := by decide +kernel

attribute [local instance] x86 in
/-- A fresh client receives a HEADERS frame of two octets that means two headers. -/
example : let c := Client.new ⟨frameOctets 1 4 1 [0x82, 0x84], [], List.replicate 11 1, []⟩
    History (Client.new c.conn) [] c ∧ announced c.conn.incoming = 2 ∧
      ∃ f, c.receiveFrame.1 = .ok f ∧
        f.headerList = [(bstr ":method", bstr "GET"), (bstr ":path", bstr "/")] := by
  refine ⟨.nil _, by decide +kernel, ?_⟩
  obtain ⟨f, h1, -, h3⟩ := process_block (fh := ⟨castToFhLength 2, 1, 4, 0, 1⟩)
    (payload := [0x82, 0x84]) (block := [0x82, 0x84]) (t := DynamicTable.default)
    (es := [⟨.indexed, .header (bstr ":method", bstr "GET")⟩,
      ⟨.indexed, .header (bstr ":path", bstr "/")⟩])
    (t' := DynamicTable.default)
    (.headers _ _ (by decide) (.plain _ (by decide)))
    (by
      rw [decodeHeaderBlock_eq (by simp), show decodeHeader [0x82, 0x84] DynamicTable.default =
        .ok (⟨.indexed, .header (bstr ":method", bstr "GET")⟩, 1) by decide +kernel, Res.ok_bind]
      simp only [List.drop_succ_cons, List.drop_zero]
      rw [decodeHeaderBlock_eq (by simp), show decodeHeader [0x84] DynamicTable.default =
        .ok (⟨.indexed, .header (bstr ":path", bstr "/")⟩, 1) by decide +kernel, Res.ok_bind]
      simp only [List.drop_succ_cons, List.drop_zero, decodeHeaderBlock_nil]
      rfl)
    (by decide +kernel)
  obtain ⟨d1, e1, -⟩ := receive_front
    (d := Client.new ⟨frameOctets 1 4 1 [0x82, 0x84], [], List.replicate 11 1, []⟩)
    (flags := 4) (sid := 1) (payload := [0x82, 0x84]) (rest := []) (n := 0) (by decide) (by decide)
    (by decide +kernel) h1 (by decide +kernel)
  exact ⟨f, by rw [e1], h3⟩

end Mh2c
