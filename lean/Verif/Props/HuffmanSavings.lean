import Verif.Props.Sizes

/-! C107: when Huffman coding saves octets. -/

namespace Mh2c
open Rfc

theorem ordinary_iff (b : UInt8) :
    Char.ofNat b.toNat ∈ ordinaryText.toList ↔ (huffCode b.toNat).length ≤ 8 := by
  have h : ∀ s ∈ List.range 256,
      decide (Char.ofNat s ∈ ordinaryText.toList) = decide ((huffCode s).length ≤ 8) := by
    decide +kernel
  simpa using h _ (List.mem_range.2 b.toNat_lt)

/-- How long the bits of a Huffman coded string are. -/
theorem huffman_length (s : Bytes) : ∃ enc, Huffman.encode s = .ok enc ∧
    enc.length = ((s.map fun b => (huffCode b.toNat).length).sum + 7) / 8 := by
  obtain ⟨enc, pad, h1, h2, h3⟩ := encode_spec s
  refine ⟨enc, h1, ?_⟩
  have hl := congrArg List.length h3
  rw [bytesBits_len, List.length_append, List.length_replicate, List.length_flatMap] at hl
  omega

theorem ordinary_shrinks {s : Bytes} (h : Ordinary s) {enc : Bytes}
    (he : Huffman.encode s = .ok enc) : enc.length ≤ s.length := by
  obtain ⟨enc', h1, h2⟩ := huffman_length s
  rw [he] at h1
  obtain rfl := Res.ok.inj h1
  have : (s.map fun b => (huffCode b.toNat).length).sum ≤ 8 * s.length := by
    clear h2 he
    induction s with
    | nil => simp
    | cons b bs ih =>
        have hb := (ordinary_iff b).1 (h b (by simp))
        have := ih (fun x hx => h x (List.mem_cons_of_mem _ hx))
        simp only [List.map_cons, List.sum_cons, List.length_cons]
        omega
  omega

theorem encodeIntTail_mono {a b : Nat} (h : a ≤ b) :
    (encodeIntTail a).length ≤ (encodeIntTail b).length := by
  have h1 : 1 ≤ (encodeIntTail b).length := by
    rw [encodeIntTail]; split <;> simp
  rw [encodeIntTail_length _ _ h1]
  have := (encodeIntTail_length b _ h1).1 le_rfl
  omega

theorem intEnc_mono (n : Nat) (hn : n ≤ 8) {a b : Nat} (h : a ≤ b) (x y : UInt8) :
    (intEnc n a x).length ≤ (intEnc n b y).length := by
  rw [intEnc_length, intEnc_length]
  obtain ⟨c, cs, h1, -, h3⟩ := encodeIntegerValue_cons n a hn
  obtain ⟨d, ds, k1, -, k3⟩ := encodeIntegerValue_cons n b hn
  rw [h1, h3, k1, k3, List.length_cons, List.length_cons]
  by_cases ha : a < 2 ^ n - 1
  · simp [ha]
  · rw [if_neg ha, if_neg (by omega)]
    have := encodeIntTail_mono (a := a - (2 ^ n - 1)) (b := b - (2 ^ n - 1)) (by omega)
    omega

theorem string_shrinks {s : Bytes} (h : Ordinary s) : ∃ x y,
    encodeHeaderValue s .huffman = .ok x ∧ encodeHeaderValue s .none = .ok y ∧
    x.length ≤ y.length := by
  obtain ⟨enc, h1, -⟩ := huffman_length s
  have hl := ordinary_shrinks h h1
  refine ⟨_, _, by simp only [encodeHeaderValue, if_true, h1, Res.ok_bind, orFirst_int]; rfl,
    by simp only [encodeHeaderValue, reduceCtorEq, if_false, Res.ok_bind, orFirst_int]; rfl, ?_⟩
  have := intEnc_mono 7 (by omega) hl EncodeMode.huffman.value EncodeMode.none.value
  simp only [List.length_append]
  omega

theorem entry_shrinks (e : HeaderEntry) (table : DynamicTable) (ho : OrdinaryEntry e) (y : Bytes)
    (hy : encodeHeader e .none table = .ok y) :
    ∃ x, encodeHeader e .huffman table = .ok x ∧ x.length ≤ y.length := by
  obtain ⟨p, v⟩ := e
  by_cases hp : p = .sizeUpdate
  · subst hp
    exact ⟨y, hy, le_rfl⟩
  · cases v with
    | maxSize n => simp [encodeHeader, HeaderEntry.getHeader, hp] at hy
    | header g =>
        rw [encodeHeader_header hp] at hy ⊢
        cases hh : hitIndex g table with
        | some i => rw [hh] at hy; exact ⟨y, hy, le_rfl⟩
        | none =>
            rw [hh] at hy
            obtain ⟨x2, y2, hx2, hy2, hl2⟩ := string_shrinks ho.2
            obtain ⟨x1, y1, hx1, hy1, hl1⟩ := string_shrinks ho.1
            have hx1' : encodeHeaderName g.1 .huffman = .ok x1 := hx1
            have hy1' : encodeHeaderName g.1 .none = .ok y1 := hy1
            simp only [encodeLiteral] at hy ⊢
            cases hr : reverseStaticTableEntries.lookup (g.1, []) with
            | some i =>
                simp only [hr, encodeIndex_eq hp, Res.ok_bind, hy2, hx2] at hy ⊢
                refine ⟨_, rfl, ?_⟩
                rw [← Res.ok.inj hy, List.length_append, List.length_append]
                omega
            | none =>
                simp only [hr, encodeIndex_eq hp, Res.ok_bind, hy2, hx2, hy1', hx1'] at hy ⊢
                refine ⟨_, rfl, ?_⟩
                rw [← Res.ok.inj hy]
                simp only [List.length_append]
                omega

/-- C107. A header block of ordinary text is encoded with Huffman coding whenever it is encoded
without, and then takes no more octets.
Missing: header text with other characters, see `C107_longer_violated`. -/
theorem C107_ordinary_partial (block : HeaderBlock) (table : DynamicTable)
    (ho : ∀ e ∈ block, OrdinaryEntry e) (plain : Bytes)
    (hp : encodeHeaderBlock block .none table = .ok plain) :
    ∃ coded, encodeHeaderBlock block .huffman table = .ok coded ∧
      coded.length ≤ plain.length := by
  induction block generalizing plain with
  | nil => exact ⟨[], rfl, by simp⟩
  | cons e es ih =>
      rw [encodeHeaderBlock, Res.bind_eq_ok] at hp
      obtain ⟨y, hy, hp⟩ := hp
      rw [Res.bind_eq_ok] at hp
      obtain ⟨ys, hys, hp⟩ := hp
      obtain ⟨x, hx, hl⟩ := entry_shrinks e table (ho e (by simp)) y hy
      obtain ⟨xs, hxs, hls⟩ := ih (fun a ha => ho a (List.mem_cons_of_mem _ ha)) ys hys
      refine ⟨x ++ xs, encodeHeaderBlock_cons hx hxs, ?_⟩
      rw [← Res.ok.inj hp, List.length_append, List.length_append]
      omega

/-- An ordinary request: 24 octets instead of 28. -/
example :
    let block : HeaderBlock := [.ofHeader .indexed (bstr ":method", bstr "GET"),
      .ofHeader .withoutIndexing (bstr "user-agent", bstr "mh2c"),
      .ofHeader .neverIndexed (bstr "x-api-key", bstr "b7f/9Q==")]
    let size := fun mode => match encodeHeaderBlock block mode (DynamicTable.new 4096) with
      | .ok b => b.length
      | _ => 0
    (∀ e ∈ block, OrdinaryEntry e) ∧ size .none = 28 ∧ size .huffman = 24 := by
  refine ⟨?_, by decide +kernel, by decide +kernel⟩
  intro e he
  simp only [List.mem_cons, List.not_mem_nil, or_false] at he
  rcases he with rfl | rfl | rfl <;> (refine ⟨?_, ?_⟩ <;> unfold Ordinary <;> decide +kernel)

/-- C107. The octets of a Huffman coded string are the bits of its codes, rounded up. -/
theorem C107_string_exact (s : Bytes) : ∃ enc, Huffman.encode s = .ok enc ∧
    enc.length = ((s.map fun b => (huffCode b.toNat).length).sum + 7) / 8 := huffman_length s

/-- C107. Text outside the ordinary characters: a header with a name of the static table and a
value that consists of one or more other octets takes more octets with Huffman coding than without,
whenever it is sent as a literal. -/
theorem C107_longer_violated (name value : Bytes) (hv : value ≠ [])
    (hb : ∀ b ∈ value, Char.ofNat b.toNat ∉ ordinaryText.toList) (i : Nat)
    (hname : staticTableEntries.lookup i = some (name, []))
    (table : DynamicTable) (hmiss : ¬ InTables (name, value) table) (p : HeaderPrefix)
    (hp : p ≠ .sizeUpdate) :
    ∃ plain coded,
      encodeHeaderBlock [.ofHeader p (name, value)] .none table = .ok plain ∧
      encodeHeaderBlock [.ofHeader p (name, value)] .huffman table = .ok coded ∧
      plain.length < coded.length := by
  have hr := (staticTable_inverse (name, []) i).2 hname
  obtain ⟨enc, h1, hl⟩ := huffman_length value
  have hlen : value.length < enc.length := by
    have h9 : 9 * value.length ≤ (value.map fun b => (huffCode b.toNat).length).sum := by
      clear hl h1 hmiss hv
      induction value with
      | nil => simp
      | cons b bs ih =>
          have h0 := mt (ordinary_iff b).2 (hb b (by simp))
          have := ih (fun x hx => hb x (List.mem_cons_of_mem _ hx))
          simp only [List.map_cons, List.sum_cons, List.length_cons]
          omega
    have := List.length_pos_iff.2 hv
    omega
  have hx : encodeHeaderValue value .huffman =
      .ok (intEnc 7 enc.length EncodeMode.huffman.value ++ enc) := by
    simp only [encodeHeaderValue, if_true, h1, Res.ok_bind, orFirst_int]; rfl
  have hy : encodeHeaderValue value .none =
      .ok (intEnc 7 value.length EncodeMode.none.value ++ value) := by
    simp only [encodeHeaderValue, reduceCtorEq, if_false, Res.ok_bind, orFirst_int]; rfl
  have hm := intEnc_mono 7 (by omega) hlen.le EncodeMode.none.value EncodeMode.huffman.value
  have key : ∀ mode out, encodeHeaderValue value mode = .ok out →
      encodeHeaderBlock [.ofHeader p (name, value)] mode table =
        .ok (intEnc (nbits p) i p.value ++ out) := by
    intro mode out ho
    have he : encodeHeader (.ofHeader p (name, value)) mode table =
        .ok (intEnc (nbits p) i p.value ++ out) := by
      show encodeHeader ⟨p, .header (name, value)⟩ mode table = _
      rw [encodeHeader_header hp, hitIndex_none.2 hmiss]
      simp only [encodeLiteral, hr, encodeIndex_eq hp, Res.ok_bind, ho]
      rfl
    rw [encodeHeaderBlock_cons he rfl, List.append_nil]
  refine ⟨_, _, key _ _ hy, key _ _ hx, ?_⟩
  simp only [List.length_append]
  omega

/-- A value of angle brackets, which Huffman coding turns into eight octets. -/
example : ∃ plain coded,
    encodeHeaderBlock [.ofHeader .neverIndexed (bstr "cookie", bstr "<<>>")] .none
      (DynamicTable.new 4096) = .ok plain ∧
    encodeHeaderBlock [.ofHeader .neverIndexed (bstr "cookie", bstr "<<>>")] .huffman
      (DynamicTable.new 4096) = .ok coded ∧ plain.length < coded.length :=
  C107_longer_violated (bstr "cookie") (bstr "<<>>") (by decide +kernel) (by decide +kernel) 32
    (by decide +kernel) _
    (by
      rintro (⟨-, i, h⟩ | h)
      · have := (staticTable_inverse _ i).2 h
        have h0 : reverseStaticTableEntries.lookup (bstr "cookie", bstr "<<>>") = none := by
          decide +kernel
        rw [h0] at this
        cases this
      · cases h) _ (by decide)

end Mh2c
