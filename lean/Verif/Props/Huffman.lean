/-
C10-C15: the Huffman code.
-/
import Verif.Proofs.HuffmanDecode

namespace Mh2c

open Rfc

/-! ## C10 -/

/-- C10. The bits of the encoding are the RFC codes of the octets, then fewer than eight 1 bits. -/
theorem C10_concatenation (s : Bytes) :
    ∃ enc pad, Huffman.encode s = .ok enc ∧ pad < 8 ∧
      bytesBits enc = (s.flatMap fun b => huffCode b.toNat) ++ List.replicate pad true :=
  encode_spec s

/-- C10. The encoding is determined by that: the padding is the least that fills the last octet. -/
theorem C10_unique (s enc : Bytes) :
    Huffman.encode s = .ok enc ↔ HuffDecodes enc s := by
  obtain ⟨enc', h1, h2⟩ := encode_rfc s
  constructor
  · intro h
    rw [h1] at h
    rw [← Res.ok.inj h]
    exact h2
  · intro h
    rw [h1]
    congr 1
    obtain ⟨p1, a1, a2, a3⟩ := h
    obtain ⟨p2, b1, b2, b3⟩ := h2
    apply bytesBits_inj
    have hl : p1.length = p2.length := by
      have e1 := congrArg List.length a1
      have e2 := congrArg List.length b1
      rw [bytesBits_length, List.length_append] at e1 e2
      omega
    rw [a1, b1, all_true_eq a3, all_true_eq b3, hl]

-- RFC 7541 C.4.1 "www.example.com"
example : Huffman.encode (bstr "www.example.com") =
    .ok [0xf1, 0xe3, 0xc2, 0xe5, 0xf2, 0x3a, 0x6b, 0xa0, 0xab, 0x90, 0xf4, 0xff] := by
  decide +kernel

/-! ## C11 -/

/-- C11. -/
theorem C11_round_trip (s : Bytes) :
    ∃ enc, Huffman.encode s = .ok enc ∧ Huffman.decode enc = .ok s := by
  obtain ⟨enc, h1, h2⟩ := encode_rfc s
  exact ⟨enc, h1, decode_of_rfc h2⟩

example : (Huffman.encode [0, 10, 255]) >>= Huffman.decode = .ok [0, 10, 255] := by
  decide +kernel

/-! ## C12 -/

/-- C12. Every octet string is decoded or rejected with `invalid_argument`; the model's outcomes
for undefined behaviour, for a loop without progress, and the `runtime_error` of the
'decode failed' branch do not occur. -/
theorem C12_total_and_safe (enc : Bytes) :
    (∃ out, Huffman.decode enc = .ok out) ∨ Huffman.decode enc = .throw .invalidArgument := by
  rcases decode_spec enc with ⟨syms, -, -, h⟩ | ⟨-, h⟩
  · exact Or.inl ⟨_, h⟩
  · exact Or.inr h

/-- C12. The output is never longer than 8/5 of the input: the shortest code has five bits. -/
theorem C12_output_bound (enc out : Bytes) (h : Huffman.decode enc = .ok out) :
    5 * out.length ≤ 8 * enc.length := by
  obtain ⟨syms, rest, hp, rfl⟩ := decode_eq_ok.1 h
  have h1 := congrArg List.length hp.1
  rw [bytesBits_length, List.length_append] at h1
  have h2 : 5 * syms.length ≤ (syms.flatMap huffCode).length := by
    have hall := hp.2.2.1
    clear h1 hp h
    induction syms with
    | nil => simp
    | cons s ss ih =>
        obtain ⟨n, v, hm⟩ := huffTable_exists (hall s (by simp))
        have := (huffTable_bounds hm).1
        have := ih fun t ht => hall t (by simp [ht])
        rw [List.flatMap_cons, List.length_append, huffCode_eq hm, bits_length, List.length_cons]
        omega
  rw [List.length_map]
  omega

example : Huffman.decode [0xff, 0xff] = .throw .invalidArgument ∧
    Huffman.decode [0xf1, 0xe3] = .ok (bstr "ww") := by decide +kernel

/-! ## C13 -/

/-- C13. `decode` returns `out` exactly when the input is a sequence of codes, then fewer than
eight bits which do not start with a code; the output consists of the low octets of the symbols
(EOS = 256 becomes octet 0). -/
theorem C13_acceptance (enc out : Bytes) :
    Huffman.decode enc = .ok out ↔
      ∃ (syms : List Nat) (rest : List Bool),
        bytesBits enc = syms.flatMap huffCode ++ rest ∧ (∀ s ∈ syms, s ≤ 256) ∧
        rest.length < 8 ∧ (∀ s ≤ 256, ¬ huffCode s <+: rest) ∧
        out = syms.map fun s => UInt8.ofNat (s % 256) := by
  have e : ∀ syms : List Nat, syms.map u8 = syms.map fun s => UInt8.ofNat (s % 256) := by
    intro syms
    apply List.map_congr_left
    intro s _
    apply UInt8.toNat_inj.1
    simp
  rw [decode_eq_ok]
  constructor
  · rintro ⟨syms, rest, ⟨h1, h2, h3, h4⟩, rfl⟩
    exact ⟨syms, rest, h1, fun s hs => Nat.lt_succ_iff.1 (h3 s hs), h2,
      fun s hs => h4 s (Nat.lt_succ_iff.2 hs), e syms⟩
  · rintro ⟨syms, rest, h1, h2, h3, h4, rfl⟩
    exact ⟨syms, rest, ⟨h1, h3, fun s hs => Nat.lt_succ_iff.2 (h2 s hs),
      fun s hs => h4 s (Nat.lt_succ_iff.1 hs)⟩, (e syms).symm⟩

/-- C13. In every other case it throws `invalid_argument`. -/
theorem C13_rejection (enc : Bytes) :
    Huffman.decode enc = .throw .invalidArgument ↔ ¬ ∃ out, Huffman.decode enc = .ok out := by
  rcases C12_total_and_safe enc with ⟨out, h⟩ | h
  · simp [h]
  · simp [h]

-- EOS followed by two bits: one symbol, delivered as octet 0
example : Huffman.decode [0xff, 0xff, 0xff, 0xfc] = .ok [0] ∧
    bytesBits [0xff, 0xff, 0xff, 0xfc] = [256].flatMap huffCode ++ [false, false] := by
  decide +kernel

/-! ## C14 -/

/-- C14, first half: whenever RFC 7541 5.2 assigns a decoding, `decode` returns it.
Missing: the converse (an input RFC 7541 rejects is rejected), which is false, see below. -/
theorem C14_rfc_agreement_partial (enc s : Bytes) (h : HuffDecodes enc s) :
    Huffman.decode enc = .ok s :=
  decode_of_rfc h

/-- C14, what is left of the second half: an accepted input that RFC 7541 rejects contains the EOS
symbol or ends in padding (of fewer than eight bits) that is not all 1. In particular padding
longer than seven bits is always rejected. Missing: rejection of these inputs, which is false of
the code. -/
theorem C14_rfc_rejection_partial (enc out : Bytes) (h : Huffman.decode enc = .ok out)
    (hrfc : ¬ ∃ s, HuffDecodes enc s) :
    ∃ (syms : List Nat) (rest : List Bool), bytesBits enc = syms.flatMap huffCode ++ rest ∧
      rest.length < 8 ∧ (eos ∈ syms ∨ ∃ b ∈ rest, b = false) := by
  obtain ⟨syms, rest, ⟨h1, h2, h3, -⟩, rfl⟩ := decode_eq_ok.1 h
  refine ⟨syms, rest, h1, h2, ?_⟩
  by_cases he : eos ∈ syms
  · exact Or.inl he
  · right
    by_contra hno
    apply hrfc
    refine ⟨syms.map u8, rest, ?_, h2, ?_⟩
    · rw [h1, List.flatMap_map]
      congr 1
      simp only [List.flatMap_def]
      congr 1
      apply List.map_congr_left
      intro s hs
      have : s < 257 := h3 s hs
      have : s ≠ 256 := fun hc => he (by rw [hc] at hs; exact hs)
      rw [u8_toNat, Nat.mod_eq_of_lt (by omega)]
    · intro b hb
      cases b with
      | true => rfl
      | false => exact (hno ⟨false, hb, rfl⟩).elim

/-- C14, exactly, for every input. If the input is a sequence of codes (EOS included) and fewer than
eight bits that do not begin with a code, whatever these bits are, `decode` returns the octets of the
codes, with a zero octet for EOS; every other input is rejected with `invalid_argument`. Missing:
rejection of EOS and of padding that is not all 1, which is false of the code. -/
theorem C14_every_input_partial (enc : Bytes) :
    (∃ (syms : List Nat) (rest : List Bool), bytesBits enc = syms.flatMap huffCode ++ rest ∧
      (∀ s ∈ syms, s ≤ eos) ∧ rest.length < 8 ∧ (∀ s ≤ eos, ¬ huffCode s <+: rest) ∧
      Huffman.decode enc = .ok (syms.map fun s => if s = eos then 0 else UInt8.ofNat s)) ∨
    ((¬ ∃ (syms : List Nat) (rest : List Bool), bytesBits enc = syms.flatMap huffCode ++ rest ∧
        (∀ s ∈ syms, s ≤ eos) ∧ rest.length < 8 ∧ ∀ s ≤ eos, ¬ huffCode s <+: rest) ∧
      Huffman.decode enc = .throw .invalidArgument) := by
  rcases decode_spec enc with ⟨syms, rest, ⟨h1, h2, h3, h4⟩, h5⟩ | ⟨h1, h2⟩
  · refine Or.inl ⟨syms, rest, h1, fun s hs => Nat.le_of_lt_succ (h3 s hs), h2,
      fun s hs => h4 s (Nat.lt_succ_of_le hs), ?_⟩
    rw [h5]
    congr 1
    refine List.map_congr_left fun s _ => ?_
    split
    · rename_i he
      rw [he]
      decide
    · rfl
  · refine Or.inr ⟨?_, h2⟩
    rintro ⟨syms, rest, g1, g2, g3, g4⟩
    exact h1 ⟨syms, rest, g1, g3, fun s hs => Nat.lt_succ_of_le (g2 s hs),
      fun s hs => g4 s (Nat.le_of_lt_succ hs)⟩

/-- Both cases occur: `a`, EOS and five padding bits; eight padding bits. -/
example : Huffman.decode [0x1f, 0xff, 0xff, 0xff, 0xff] = .ok (bstr "a" ++ [0]) ∧
    Huffman.decode [0xff] = .throw .invalidArgument := by decide +kernel

/-- C14 is false of the code: a string containing EOS, and one padded with zeros, have no RFC
decoding but are accepted. -/
theorem C14_rfc_rejection_violated :
    (Huffman.decode [0xff, 0xff, 0xff, 0xff] = .ok [0] ∧
      ¬ ∃ s, HuffDecodes [0xff, 0xff, 0xff, 0xff] s) ∧
    (Huffman.decode [0x00] = .ok (bstr "0") ∧ ¬ ∃ s, HuffDecodes [0x00] s) := by
  refine ⟨⟨by decide +kernel, ?_⟩, ⟨by decide +kernel, ?_⟩⟩
  · rintro ⟨s, hs⟩
    obtain ⟨rest, hp⟩ := HuffDecodes.parse hs
    have hq : HuffParse (bytesBits [0xff, 0xff, 0xff, 0xff]) [256] [true, true] := by
      refine ⟨by decide +kernel, by decide, by decide, ?_⟩
      intro t ht
      exact ones_no_code (p := 2) (by decide) ht
    have := (hp.unique hq).1
    have hm : (256 : Nat) ∈ s.map UInt8.toNat := by rw [this]; simp
    obtain ⟨b, -, hb⟩ := List.mem_map.1 hm
    have := b.toNat_lt
    omega
  · rintro ⟨s, hs⟩
    obtain ⟨pad, h1, h2, h3⟩ := id hs
    obtain ⟨rest, hp⟩ := HuffDecodes.parse hs
    have hq : HuffParse (bytesBits [0x00]) [48] [false, false, false] := by
      refine ⟨by decide +kernel, by decide, by decide, ?_⟩
      intro t ht hpre
      obtain ⟨n, v, hm⟩ := huffTable_exists ht
      have := (huffTable_bounds hm).1
      have hl := hpre.length_le
      rw [huffCode_eq hm, bits_length] at hl
      simp at hl
      omega
    have hpp : HuffParse (bytesBits [0x00]) (s.map UInt8.toNat) pad := by
      refine ⟨by rw [flatMap_huff]; exact h1, h2, hp.2.2.1, ?_⟩
      intro t ht
      rw [all_true_eq h3]
      exact ones_no_code h2 ht
    have := (hpp.unique hq).2
    have := h3 false (by rw [this]; simp)
    cases this

example : HuffDecodes [0xf1, 0xe3] (bstr "ww") := ⟨[true, true], by decide +kernel⟩

/-! ## C15 -/

/-- The bit string the encoding table assigns to a symbol. -/
def tableCode (s : Nat) : List Bool :=
  match Huffman.encodeTable.lookup s with
  | some (code, len) => bits len code
  | none => []

/-- C15. The encoding table holds, for each of the 257 symbols, the canonical code with the
RFC 7541 Appendix B lengths. -/
theorem C15_canonical (s : Nat) (hs : s < 257) :
    ∃ code len, Huffman.encodeTable.lookup s = some (code, len) ∧
      huffLengths[s]? = some len ∧ code < 2 ^ len ∧ bits len code = huffCode s := by
  obtain ⟨n, v, hm⟩ := huffTable_exists hs
  have h1 := eq_of_beq (List.all_eq_true.1 encodeTable_check _ hm)
  have h2 : huffTable.all (fun e => huffLengths[e.1]? == some e.2.1) = true := by decide +kernel
  exact ⟨v, n, h1, eq_of_beq (List.all_eq_true.1 h2 _ hm), (huffTable_bounds hm).2.2,
    (huffCode_eq hm).symm⟩

theorem tableCode_eq {s : Nat} (hs : s < 257) : tableCode s = huffCode s := by
  obtain ⟨code, len, h1, -, -, h4⟩ := C15_canonical s hs
  unfold tableCode
  rw [h1]
  exact h4

/-- C15. The two tables are inverse: the decoding table maps code `code` of length `len` to `s`
iff the encoding table maps `s` to it. -/
theorem C15_inverse (s code len : Nat) :
    (∃ m, Huffman.decodeTable.lookup len = some m ∧ m.lookup code = some s) ↔
      s < 257 ∧ Huffman.encodeTable.lookup s = some (code, len) := by
  constructor
  · rintro ⟨m, h1, h2⟩
    rw [decodeTable_lookup (lookup_mem h1)] at h2
    exact ⟨huffTable_lt h2, eq_of_beq (List.all_eq_true.1 encodeTable_check _ h2)⟩
  · rintro ⟨hs, h⟩
    obtain ⟨n, v, hm⟩ := huffTable_exists hs
    have h1 := eq_of_beq (List.all_eq_true.1 encodeTable_check _ hm)
    simp only at h1
    rw [h] at h1
    simp only [Option.some.injEq, Prod.mk.injEq] at h1
    obtain ⟨rfl, rfl⟩ := h1
    have h2 := eq_of_beq (List.all_eq_true.1 decodeTable_complete _ hm)
    simp only at h2
    cases hl : Huffman.decodeTable.lookup len with
    | none => rw [hl] at h2; cases h2
    | some m => rw [hl] at h2; exact ⟨m, rfl, h2⟩

/-- C15. No code is a prefix of another. -/
theorem C15_prefix_free (s t : Nat) (hs : s < 257) (ht : t < 257)
    (h : tableCode s <+: tableCode t) : s = t := by
  rw [tableCode_eq hs, tableCode_eq ht] at h
  exact huffCode_prefix_free hs ht h (List.prefix_refl _)

theorem exists_bits (l : List Bool) : ∃ V < 2 ^ l.length, bits l.length V = l := by
  induction l with
  | nil => exact ⟨0, by simp, rfl⟩
  | cons b bs ih =>
      obtain ⟨V, h1, h2⟩ := ih
      refine ⟨b.toNat * 2 ^ bs.length + V, ?_, ?_⟩
      · rw [List.length_cons, Nat.pow_succ]
        cases b <;> simp <;> omega
      · rw [List.length_cons, Nat.add_comm bs.length 1, bits_append 1 _ h1, h2]
        cases b <;> rfl

/-- C15. Every infinite bit string starts with some code. -/
theorem C15_complete (f : Nat → Bool) :
    ∃ s < 257, tableCode s = (List.range (tableCode s).length).map f := by
  obtain ⟨V, hV, hb⟩ := exists_bits ((List.range 30).map f)
  rw [show ((List.range 30).map f).length = 30 by simp] at hV hb
  obtain ⟨s, n, v, hm, hall⟩ := code_of hV
  obtain ⟨-, h30, hv⟩ := huffTable_bounds hm
  have hs := huffTable_lt hm
  refine ⟨s, hs, ?_⟩
  have hp := (bits_prefix_iff hv hV).2 ⟨h30, (hall _ _ _ hm h30).2 rfl⟩
  rw [hb] at hp
  rw [tableCode_eq hs, huffCode_eq hm, bits_length]
  rw [List.prefix_iff_eq_take.1 hp, bits_length, ← List.map_take, List.take_range,
    Nat.min_eq_left h30]

/-- C15. The code of EOS is thirty 1 bits, so the encoder's padding is a prefix of it. -/
theorem C15_eos : tableCode 256 = List.replicate 30 true := by decide +kernel

example : tableCode 97 = [false, false, false, true, true] := by decide +kernel

end Mh2c
