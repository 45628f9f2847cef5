/-
C01-C06: bit extraction, flags, byte order, frame headers.
-/
import Verif.Proofs.FrameHeader

namespace Mh2c

open Rfc

/-! ## C01 -/

/-- C01. `extract_high_bit<N>` and `extract_low_bit<W-N>` split an integer of `W` bits: both calls
are well defined and give the two parts. -/
theorem C01_high_low_partition (w n x : Nat) (hx : x < 2 ^ w)
    (hn : n ≤ w) (h0 : w - n < 32) :
    ∃ high low, extractHighBit w n x = .ok high ∧ extractLowBit (w - n) x = .ok low ∧
      high * 2 ^ (w - n) + low = x ∧ low < 2 ^ (w - n) ∧ high < 2 ^ n := by
  refine ⟨x / 2 ^ (w - n), x % 2 ^ (w - n), ?_, ?_, ?_, ?_, ?_⟩
  · unfold extractHighBit
    rw [if_pos ⟨hn, by omega⟩, highBits_eq]
  · unfold extractLowBit
    rw [if_pos h0, lowBits_eq]
  · rw [Nat.mul_comm]; exact Nat.div_add_mod x _
  · exact Nat.mod_lt _ (Nat.pow_pos (by omega))
  · apply Nat.div_lt_of_lt_mul
    rw [← Nat.pow_add]
    rwa [show w - n + n = w by omega]

example : extractHighBit 32 24 0x12345678 = .ok 0x123456 ∧
    extractLowBit 8 0x12345678 = .ok 0x78 := by decide

/-- C01. Exactly when the calls are well defined. -/
theorem C01_defined_iff (w n x : Nat) (hw : w = 8 ∨ w = 16 ∨ w = 32) :
    ((extractLowBit n x).Safe ↔ n < 32) ∧
    ((extractHighBit w n x).Safe ↔ n ≤ w ∧ (w = 32 → n ≠ 0)) := by
  constructor
  · unfold extractLowBit
    by_cases h : n < 32 <;> simp [h]
  · unfold extractHighBit
    by_cases h : n ≤ w ∧ w - n < max w 32
    · rw [if_pos h]; simp only [Res.safe_ok, true_iff]; omega
    · rw [if_neg h]; simp only [Res.not_safe_ub, false_iff]; omega

example : (extractLowBit 32 5) = .ub .badShift ∧ (extractHighBit 8 9 5) = .ub .badShift := by decide

/-! ## C02 -/

/-- C02. A flag test means "all bits of the flag are set"; for the zero flag it means "no bit is
set". -/
theorem C02_is_flag_set (flags f : UInt8) :
    (isFlagSet flags f = true ↔
      if f = 0 then flags = 0 else ∀ i < 8, f.toNat.testBit i → flags.toNat.testBit i) := by
  unfold isFlagSet
  by_cases h : f = 0
  · simp [h]
  · simp only [beq_iff_eq, h, if_false]
    rw [← UInt8.toNat_inj, UInt8.toNat_and]
    constructor
    · intro e i _ hi
      have := congrArg (·.testBit i) e
      simp only [Nat.testBit_and, hi, Bool.and_true] at this
      exact this
    · intro hall
      apply Nat.eq_of_testBit_eq
      intro i
      rw [Nat.testBit_and]
      by_cases hi : i < 8
      · have := hall i hi
        cases hf : f.toNat.testBit i <;> simp_all
      · have : f.toNat.testBit i = false :=
          Nat.testBit_lt_two_pow (lt_of_lt_of_le f.toNat_lt (Nat.pow_le_pow_right (by omega) (by omega : 8 ≤ i)))
        simp [this]

theorem makeFlags_testBit (first : UInt8) (rest : List UInt8) (i : Nat) :
    (makeFrameHeaderFlags first rest).toNat.testBit i =
      (first :: rest).any (fun f => f.toNat.testBit i) := by
  unfold makeFrameHeaderFlags
  induction rest generalizing first with
  | nil => simp
  | cons a as ih =>
      rw [List.foldl_cons, ih]
      simp [Bool.or_assoc]

/-- C02. The bits of composed flags are exactly the bits of the arguments. -/
theorem C02_make_flags_bits (first : UInt8) (rest : List UInt8) (i : Nat) :
    (makeFrameHeaderFlags first rest).toNat.testBit i ↔
      ∃ f ∈ first :: rest, f.toNat.testBit i := by
  rw [makeFlags_testBit, List.any_eq_true]

/-- C02. Every non-zero argument tests as set in the composition. -/
theorem C02_make_flags_set (first : UInt8) (rest : List UInt8) (f : UInt8) (hf : f ∈ first :: rest)
    (h0 : f ≠ 0) : isFlagSet (makeFrameHeaderFlags first rest) f = true := by
  rw [C02_is_flag_set, if_neg h0]
  intro i _ hi
  rw [C02_make_flags_bits]
  exact ⟨f, hf, hi⟩

/-- C02. The order of the arguments is irrelevant. -/
theorem C02_make_flags_order (f g : UInt8) (fs gs : List UInt8) (h : (f :: fs).Perm (g :: gs)) :
    makeFrameHeaderFlags f fs = makeFrameHeaderFlags g gs := by
  rw [← UInt8.toNat_inj]
  apply Nat.eq_of_testBit_eq
  intro i
  have := C02_make_flags_bits f fs i
  have := C02_make_flags_bits g gs i
  have hm : ∀ a, a ∈ f :: fs ↔ a ∈ g :: gs := fun a => h.mem_iff
  rw [Bool.eq_iff_iff]
  simp_all

example : makeFrameHeaderFlags 0x01 [0x04, 0x20] = 0x25 ∧ isFlagSet 0x25 0x20 = true ∧
    isFlagSet 0x25 0x08 = false ∧ ((0x01 : UInt8) :: [0x04, 0x20]).Perm (0x20 :: [0x04, 0x01]) := by
  decide

/-! ## C03 -/

/-- C03. Writing an integer gives its big-endian octets on every host, whichever of the two
routines is used. -/
theorem C03_network_order [Platform] (size x : Nat) :
    netBytes size x = be size x ∧ integral2bytes size x = be size x :=
  ⟨netBytes_eq size x, integral2bytes_eq size x⟩

/-- C03. Reading back what was written, in front of any other octets. -/
theorem C03_read_back [Platform] (size x : Nat) (hs : size = 2 ∨ size = 4) (hx : x < 256 ^ size)
    (rest : Bytes) : bytes2integral size (netBytes size x ++ rest) = .ok x := by
  rw [netBytes_eq, bytes2integral_ok (by omega) (by simp), List.take_left' (be_length size x),
    beValue_be, Nat.mod_eq_of_lt hx]

/-- C03. Reading is the big-endian value of exactly the first `size` octets; writing that value
gives these octets again. With fewer octets it reads out of bounds. -/
theorem C03_read_exact [Platform] (size : Nat) (v : Bytes) (hs : size = 1 ∨ size = 2 ∨ size = 4) :
    (size ≤ v.length →
      bytes2integral size v = .ok (beValue (v.take size)) ∧
      netBytes size (beValue (v.take size)) = v.take size) ∧
    (v.length < size → bytes2integral size v = .ub .outOfBounds) := by
  refine ⟨fun h => ⟨bytes2integral_ok (by omega) h, ?_⟩, fun h => bytes2integral_short (by omega) h⟩
  rw [netBytes_eq]
  conv_rhs => rw [← be_beValue (v.take size)]
  rw [List.length_take, Nat.min_eq_left h]

/-- C03. The two conversions are inverse to each other; `cvt_net2host` of an integer whose octets in
memory came from the network is the value these octets have in network order. -/
theorem C03_conversions [Platform] (size x : Nat) (hx : x < 256 ^ size) :
    netToHost size (hostToNet size x) = x ∧ hostToNet size (netToHost size x) = x ∧
      netToHost size x = beValue (memBytes size x) := by
  have swap : ∀ y, y < 256 ^ size → littleValue (littleBytes size
      (littleValue (littleBytes size y).reverse)).reverse = y := by
    intro y hy
    have h := littleBytes_littleValue (littleBytes size y).reverse
    rw [List.length_reverse, littleBytes_length] at h
    rw [h, List.reverse_reverse, littleValue_littleBytes, Nat.mod_eq_of_lt hy]
  unfold netToHost hostToNet memBytes
  split
  · exact ⟨rfl, rfl, by rw [littleBytes_reverse, beValue_be, Nat.mod_eq_of_lt hx]⟩
  · exact ⟨swap x hx, swap x hx, by rw [littleValue_eq_beValue, List.reverse_reverse]⟩

example : @netToHost x86 4 0x01020304 = 0x04030201 ∧ @hostToNet x86 2 0x0102 = 0x0201 ∧
    @netToHost strictBig 4 0x01020304 = 0x01020304 := by decide

example : @netBytes x86 4 0x01020304 = [1, 2, 3, 4] ∧ @netBytes strictBig 4 0x01020304 = [1, 2, 3, 4] ∧
    bytes2integral 4 [0xff, 2, 3, 4, 5] = .ok 0xff020304 := by decide

/-! ## C04-C06: frame headers -/

/-- C04. Serialization of a header in range: nine octets in the layout of RFC 7540 4.1, and parsing
returns the header. -/
theorem C04_frame_header_round_trip [Platform] (fh : FrameHeader)
    (hl : fh.length.toNat < 2 ^ 24) (hr : fh.reserved.toNat ≤ 1) (hs : fh.streamId.toNat < 2 ^ 31)
    (rest : Bytes) :
    fh.serialize = be 3 fh.length.toNat ++ [fh.type, fh.flags] ++
      be 4 (fh.reserved.toNat * 2 ^ 31 + fh.streamId.toNat) ∧
    fh.serialize.length = 9 ∧
    buildFrameHeader (fh.serialize ++ rest) = .ok fh := by
  refine ⟨?_, by simp, ?_⟩
  · rw [FrameHeader.serialize_eq, or_high_bit _ _ hs, lowBits_eq, Nat.mod_eq_of_lt (by omega)]
  · rw [buildFrameHeader_serialize, Nat.mod_eq_of_lt hl, Nat.mod_eq_of_lt hs,
      Nat.div_eq_of_lt hs, Nat.mod_eq_of_lt (by omega : fh.reserved.toNat < 2)]
    simp

example : let fh : FrameHeader := ⟨0x010203, 1, 5, 1, 0x7ffffffe⟩
    fh.length.toNat < 2 ^ 24 ∧ fh.reserved.toNat ≤ 1 ∧ fh.streamId.toNat < 2 ^ 31 ∧
    @FrameHeader.serialize x86 fh = [1, 2, 3, 1, 5, 0xff, 0xff, 0xff, 0xfe] := by decide

theorem take_nine (raw : Bytes) (h : 9 ≤ raw.length) :
    raw.take 3 ++ [raw[3], raw[4]] ++ (raw.drop 5).take 4 = raw.take 9 := by
  match raw, h with
  | a0 :: a1 :: a2 :: a3 :: a4 :: a5 :: a6 :: a7 :: a8 :: _, _ => rfl

/-- C05. Parsing loses nothing: for at least nine octets it returns a header in range whose
serialization is the first nine octets; with fewer octets it reads out of bounds. -/
theorem C05_parse_lossless [Platform] (raw : Bytes) :
    (9 ≤ raw.length → ∃ fh, buildFrameHeader raw = .ok fh ∧
      fh.length.toNat < 2 ^ 24 ∧ fh.reserved.toNat ≤ 1 ∧ fh.streamId.toNat < 2 ^ 31 ∧
      fh.serialize = raw.take 9) ∧
    (raw.length < 9 → buildFrameHeader raw = .ub .outOfBounds) := by
  refine ⟨fun h => ?_, buildFrameHeader_short raw⟩
  refine ⟨_, buildFrameHeader_eq raw h, ?_⟩
  have h3 : beValue (raw.take 3) < 256 ^ 3 := by
    have := beValue_lt (raw.take 3)
    rwa [List.length_take, Nat.min_eq_left (by omega)] at this
  have h4 : beValue ((raw.drop 5).take 4) < 256 ^ 4 := by
    have := beValue_lt ((raw.drop 5).take 4)
    rwa [List.length_take, Nat.min_eq_left (by simp; omega)] at this
  have e3 : (UInt32.ofNat (beValue (raw.take 3))).toNat = beValue (raw.take 3) := by
    simp; norm_num at h3; omega
  have e4 : (UInt8.ofNat (beValue ((raw.drop 5).take 4) / 2 ^ 31)).toNat =
      beValue ((raw.drop 5).take 4) / 2 ^ 31 := by
    simp; norm_num at h4; omega
  have e5 : (UInt32.ofNat (beValue ((raw.drop 5).take 4) % 2 ^ 31)).toNat =
      beValue ((raw.drop 5).take 4) % 2 ^ 31 := by
    simp; omega
  simp only [FrameHeader.serialize_eq, e3, e4, e5]
  norm_num at h3 h4
  refine ⟨by omega, by omega, by omega, ?_⟩
  rw [or_high_bit _ _ (Nat.mod_lt _ (by norm_num)), lowBits_eq,
    Nat.mod_eq_of_lt (by omega : beValue ((raw.drop 5).take 4) / 2 ^ 31 < 2 ^ 1)]
  have e6 : beValue ((raw.drop 5).take 4) / 2 ^ 31 * 2 ^ 31 +
      beValue ((raw.drop 5).take 4) % 2 ^ 31 = beValue ((raw.drop 5).take 4) := by omega
  rw [e6]
  have b3 := be_beValue (raw.take 3)
  have b4 := be_beValue ((raw.drop 5).take 4)
  rw [List.length_take, Nat.min_eq_left (by omega)] at b3
  rw [List.length_take, Nat.min_eq_left (by simp; omega)] at b4
  rw [b3, b4]
  exact take_nine raw h

/-- C05. Distinct nine-octet strings are distinct headers. -/
theorem C05_parse_injective (a b : Bytes) (ha : a.length = 9) (hb : b.length = 9)
    (h : buildFrameHeader a = buildFrameHeader b) : a = b := by
  obtain ⟨fa, h1, -, -, -, h2⟩ := (@C05_parse_lossless x86 a).1 (by omega)
  obtain ⟨fb, h3, -, -, -, h4⟩ := (@C05_parse_lossless x86 b).1 (by omega)
  rw [h1, h3] at h
  injection h with h
  rw [List.take_of_length_le (by omega)] at h2 h4
  rw [← h2, ← h4, h]

example : buildFrameHeader [0, 0, 8, 6, 1, 0x80, 0, 0, 7, 42] = .ok ⟨8, 6, 1, 1, 7⟩ ∧
    buildFrameHeader [0, 0, 8, 6, 1, 0x80, 0, 0] = .ub .outOfBounds := by decide

/-- C06. What a receiver parses from the serialization of an arbitrary header. -/
theorem C06_out_of_range_fields [Platform] (fh : FrameHeader) (rest : Bytes) :
    ∃ got, buildFrameHeader (fh.serialize ++ rest) = .ok got ∧
      got.length.toNat = fh.length.toNat % 2 ^ 24 ∧ got.type = fh.type ∧ got.flags = fh.flags ∧
      got.streamId.toNat = fh.streamId.toNat % 2 ^ 31 ∧
      (got.reserved.toNat = 1 ↔ fh.reserved.toNat % 2 = 1 ∨ 2 ^ 31 ≤ fh.streamId.toNat) ∧
      got.reserved.toNat ≤ 1 := by
  refine ⟨_, buildFrameHeader_serialize fh rest, ?_, rfl, rfl, ?_, ?_⟩
  · rw [UInt32.toNat_ofNat']; omega
  · rw [UInt32.toNat_ofNat']; omega
  · have hs : fh.streamId.toNat < 2 ^ 32 := fh.streamId.toNat_lt
    rcases Nat.mod_two_eq_zero_or_one fh.reserved.toNat with h0 | h0 <;>
      rcases (by omega : fh.streamId.toNat / 2 ^ 31 = 0 ∨ fh.streamId.toNat / 2 ^ 31 = 1) with h1 | h1 <;>
      rw [h0, h1] <;> simp <;> omega

/-- C06. A payload of 2^24 octets or more is announced with a wrong length. -/
theorem C06_oversized_length_is_wrong [Platform] (fh : FrameHeader) (rest : Bytes)
    (h : 2 ^ 24 ≤ fh.length.toNat) :
    ∃ got, buildFrameHeader (fh.serialize ++ rest) = .ok got ∧ got.length ≠ fh.length := by
  obtain ⟨got, h1, h2, -⟩ := C06_out_of_range_fields fh rest
  refine ⟨got, h1, fun e => ?_⟩
  rw [e] at h2
  omega

example : buildFrameHeader (@FrameHeader.serialize x86 ⟨0x1000005, 0, 0, 3, 0x80000009⟩) =
    .ok ⟨5, 0, 0, 1, 9⟩ := by decide

end Mh2c
