/-
C110: malformed requests and responses.
-/
import Verif.Spec.Message
import Verif.Props.ServerStream
import Verif.Props.Split
import Verif.Props.Sizes

namespace Mh2c

open Rfc DynamicTable

theorem plainString (s rest : Bytes) (hs : s.length ≤ 126) :
    StringAt intDecodeMinimal (UInt8.ofNat s.length :: (s ++ rest)) s rest := by
  have hn : (UInt8.ofNat s.length).toNat = s.length := by
    rw [UInt8.toNat_ofNat']; omega
  refine .plain _ _ _ _ (by omega) ?_
  unfold intDecodeMinimal intDecode
  simp only
  rw [if_pos (by omega)]
  simp only
  rw [if_pos ⟨by omega, Or.inl (by simp)⟩]
  congr 2
  omega

theorem plainLiterals (t0 t : Table) (fs : List Header)
    (hs : ∀ f ∈ fs, f.1.length ≤ 126 ∧ f.2.length ≤ 126) :
    PlainBlock t0 t (fs.flatMap plainLiteral) (fs.map .withoutIndexing) t := by
  induction fs with
  | nil => exact .nil t
  | cons f fs ih =>
      refine .cons t t _ (fs.flatMap plainLiteral) (.withoutIndexing f) _ ?_
        (ih fun g hg => hs g (List.mem_cons_of_mem _ hg))
      obtain ⟨h1, h2⟩ := hs f List.mem_cons_self
      rw [List.flatMap_cons]
      unfold plainLiteral
      simp only [List.cons_append, List.append_assoc]
      refine .withoutIndexing _ _ _ _ (by decide) ?_
      have hz : ∀ bs : Bytes, intDecodeMinimal 4 (0 :: bs) = some (0, bs) := by
        intro bs
        unfold intDecodeMinimal intDecode
        simp
      exact .newName _ _ _ _ f.1 f.2 (hz _) (plainString _ _ h1) (plainString _ _ h2)

theorem fields_plain (fs : List Header) : fields (fs.map Item.withoutIndexing) = fs := by
  induction fs with
  | nil => rfl
  | cons f fs ih =>
      unfold fields at ih ⊢
      rw [List.map_cons]
      show f :: List.filterMap _ _ = _
      rw [ih]

/-! ## C110 -/

/-- C110 is false of what is received: every malformed response (of non-empty names and values up to
126 octets), sent in one HEADERS frame as plain literals, is delivered as it is, in every state of
the client. The literals do mean that header list. -/
theorem C110_received_violated [Platform] (c : Client) (fs : List Field) (flags : UInt8) (sid : UInt32)
    (payload rest : Bytes) (_ : MalformedResponse fs)
    (hlen : ∀ f ∈ fs, f.1 ≠ [] ∧ f.1.length ≤ 126 ∧ f.2 ≠ [] ∧ f.2.length ≤ 126)
    (hp : CarriesBlock flags 1 payload (fs.flatMap plainLiteral))
    (hs : sid.toNat < 2 ^ 31) (hl : payload.length < 2 ^ 24)
    (hi : c.conn.incoming = frameOctets 1 flags sid.toNat payload ++ rest)
    (hw : Willing c.conn.reads (9 + payload.length)) :
    (∀ t, ∃ items, BlockDecodes t (fs.flatMap plainLiteral) items t ∧ fields items = fs) ∧
    ∃ f, c.receiveFrame.1 = .ok f ∧ f.kind = some 1 ∧ f.headerList = fs := by
  have hpl := fun t0 t => plainLiterals t0 t fs fun f hf => ⟨(hlen f hf).2.1, (hlen f hf).2.2.2⟩
  refine ⟨fun t => ⟨_, (hpl t t).conforming, fields_plain fs⟩, ?_⟩
  obtain ⟨-, h2, h3⟩ := C32_client_decodes_partial c.responseTable c.responseTable.maxTableSize _ _ _
    (hpl _ _) (by
      intro item hm
      obtain ⟨f, hf, rfl⟩ := List.mem_map.1 hm
      exact ⟨Or.inr (hlen f hf).1, Or.inr (hlen f hf).2.2.1⟩)
  have hstill := updateDynamicTable_still (t := c.responseTable)
    (a := (fs.map Item.withoutIndexing).map entryOf) (by
      intro e he
      obtain ⟨item, hm, rfl⟩ := List.mem_map.1 he
      obtain ⟨f, -, rfl⟩ := List.mem_map.1 hm
      exact ⟨fun h => (by cases h), fun h => (by cases h)⟩)
  obtain ⟨g, g1, g2, g3⟩ := process_block
    (fh := ⟨castToFhLength payload.length, 1, flags, 0, sid⟩) hp h2 hstill
  obtain ⟨d, d1, -⟩ := receive_front (n := 0) hl hs hi g1
    (by rw [(front_frame 1 flags sid payload [] hl hs).1]; exact hw)
  exact ⟨g, by rw [d1], g2, by rw [g3, h3, fields_plain]⟩

/-- C110 is false of what is sent: every malformed request (without the mistyped name of C31) can be
put in a HEADERS frame, and a conforming server that holds the client's table reads exactly that
header list. -/
theorem C110_sent_violated [Platform] (table : DynamicTable) (fs : List Field) (mode : EncodeMode)
    (flags : UInt8) (sid : UInt32) (_ : MalformedRequest fs)
    (hname : ∀ f ∈ fs, f.1 ≠ bstr "accept-control-allow-origin")
    (hsize : (fs.map fun f => 4 * (f.1.length + f.2.length) + 32).sum < 2 ^ 24)
    (ht : table.entries.length < 2 ^ 61)
    (hflags : ¬ hasPadded flags ∧ ¬ hasPriority flags) :
    ∃ f block items t',
      HeadersFrame.new flags sid (fs.map fun h => ⟨.withoutIndexing, .header h⟩) mode table = .ok f ∧
      f.serialize = .ok (frameOctets 1 flags sid.toNat block) ∧
      BlockDecodes ⟨table.entries, table.maxTableSize⟩ block items t' ∧ fields items = fs := by
  have hmem : ∀ e ∈ (fs.map fun h => (⟨.withoutIndexing, .header h⟩ : HeaderEntry)),
      ∃ f ∈ fs, e = ⟨.withoutIndexing, .header f⟩ := by
    intro e he
    obtain ⟨f, hf, rfl⟩ := List.mem_map.1 he
    exact ⟨f, hf, rfl⟩
  obtain ⟨enc, items, t', h1, h2, -, h4, -⟩ := C31_peer_decodes_partial table mode
    (fs.map fun h => ⟨.withoutIndexing, .header h⟩)
    (by
      intro e he
      obtain ⟨f, -, rfl⟩ := hmem e he
      exact Or.inr ⟨(fun h => by cases h), f, rfl⟩)
    (by
      intro e he hp
      obtain ⟨f, -, rfl⟩ := hmem e he
      cases hp)
    (by
      intro e he h hh _
      obtain ⟨f, hf, rfl⟩ := hmem e he
      injection hh with hh
      subst hh
      exact hname f hf)
    (List.pairwise_of_forall_mem_list fun a ha b _ hc => by
      obtain ⟨f, -, rfl⟩ := hmem a ha
      rcases hc with ⟨n, hc, -⟩ | ⟨h, hc, -⟩ <;> cases hc)
  have hb := C95_block_size _ mode table enc h1 (by
      intro e he
      obtain ⟨f, hf, rfl⟩ := hmem e he
      have hle : 4 * (f.1.length + f.2.length) + 32 ≤
          (fs.map fun f => 4 * (f.1.length + f.2.length) + 32).sum := by
        obtain ⟨a, b, rfl⟩ := List.append_of_mem hf
        simp only [List.map_append, List.map_cons, List.sum_append, List.sum_cons]
        omega
      show f.1.length < 2 ^ 61 ∧ f.2.length < 2 ^ 61
      omega) ht
  have hle : ∀ l : List Field,
      ((l.map fun h => (⟨.withoutIndexing, .header h⟩ : HeaderEntry)).map (entryRoom mode)).sum ≤
        (l.map fun f => 4 * (f.1.length + f.2.length) + 32).sum := by
    intro l
    induction l with
    | nil => simp
    | cons f l ih =>
        have : entryRoom mode ⟨.withoutIndexing, .header f⟩ ≤ 4 * (f.1.length + f.2.length) + 32 := by
          cases mode <;> simp [entryRoom]
          omega
        simp only [List.map_cons, List.sum_cons]
        omega
  have hlen : enc.length < 2 ^ 24 := by have := hle fs; omega
  have e1 := headers_encoded (flags := flags) (padding := []) (p := .zero)
    (fun h => absurd h hflags.2) (fun h => absurd h hflags.2) h1
  have e2 : withPadding flags (withPriority flags .zero enc) [] = enc := by
    unfold withPadding withPriority
    rw [if_neg hflags.1, if_neg hflags.2]
  rw [e2] at e1
  refine ⟨⟨enc, ⟨castToFhLength enc.length, 1, flags, 0, sid⟩, [], .zero,
    fs.map fun h => ⟨.withoutIndexing, .header h⟩⟩, enc, items, t', ?_, ?_,
    h2, ?_⟩
  · unfold HeadersFrame.new
    rw [e1]; rfl
  · unfold HeadersFrame.serialize
    simp only
    rw [header_frame _ _ _ _ hlen]
  · rw [h4]
    clear * - fs
    induction fs with
    | nil => rfl
    | cons f fs ih => exact congrArg (f :: ·) ih

/-- A malformed response (upper case, pseudo-header after a regular one), carried
in one HEADERS frame; a malformed request (no `:path`). -/
example : MalformedResponse [(ascii "Server", ascii "x"), (ascii ":status", ascii "200")] ∧
    MalformedRequest [(ascii ":method", ascii "GET"), (ascii ":scheme", ascii "https")] ∧
    CarriesBlock 4 1
      ([(ascii "Server", ascii "x"), (ascii ":status", ascii "200")].flatMap plainLiteral)
      ([(ascii "Server", ascii "x"), (ascii ":status", ascii "200")].flatMap plainLiteral) ∧
    [(ascii "Server", ascii "x"), (ascii ":status", ascii "200")].flatMap plainLiteral =
      [0, 6, 83, 101, 114, 118, 101, 114, 1, 120, 0, 7, 58, 115, 116, 97, 116, 117, 115, 3, 50, 48, 48] :=
  ⟨Or.inl (Or.inl ⟨_, List.mem_cons_self, 83, by decide +kernel, by decide⟩),
   Or.inr (Or.inr ⟨by decide +kernel, Or.inr (by decide +kernel)⟩),
   .headers _ _ (by decide) (.plain _ (by decide)), by decide +kernel⟩

end Mh2c
