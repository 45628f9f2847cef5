/-
Helper lemmas about the frame header.
-/
import Verif.Proofs.Bits
import Verif.Model.FrameHeader

namespace Mh2c

open Rfc

theorem or_high_bit (a b : Nat) (hb : b < 2 ^ 31) : (a <<< 31) ||| b = a * 2 ^ 31 + b := by
  rw [← Nat.shiftLeft_add_eq_or_of_lt hb, Nat.shiftLeft_eq]

/-- A one-bit field in front of a 31-bit one, the latter possibly too large. -/
theorem or_high_bit_general (a b : Nat) :
    (lowBits 1 a <<< 31) ||| b = (a % 2 ||| b / 2 ^ 31) * 2 ^ 31 + b % 2 ^ 31 := by
  rw [lowBits_eq, Nat.pow_one]
  have h1 : b = (b / 2 ^ 31) <<< 31 ||| b % 2 ^ 31 := by
    rw [or_high_bit _ _ (Nat.mod_lt _ (by norm_num))]
    omega
  conv_lhs => rw [h1]
  rw [← Nat.or_assoc, ← Nat.shiftLeft_or_distrib, or_high_bit _ _ (Nat.mod_lt _ (by norm_num))]

theorem bit_or_lt (a b : Nat) (ha : a < 2) (hb : b < 2) : a ||| b < 2 :=
  Nat.or_lt_two_pow (n := 1) ha hb

theorem be_four_drop (x : Nat) : (be 4 x).drop 1 = be 3 x := rfl

/-- The nine octets of a serialized header. -/
theorem FrameHeader.serialize_eq [Platform] (fh : FrameHeader) :
    fh.serialize = be 3 fh.length.toNat ++ [fh.type, fh.flags] ++
      be 4 ((lowBits 1 fh.reserved.toNat <<< 31) ||| fh.streamId.toNat) := by
  unfold FrameHeader.serialize
  rw [netBytes_eq, netBytes_eq, be_four_drop]
  simp

@[simp] theorem FrameHeader.serialize_length [Platform] (fh : FrameHeader) :
    fh.serialize.length = 9 := by
  rw [serialize_eq]; simp

/-- `build_frame_header` on at least nine octets. -/
theorem buildFrameHeader_eq (raw : Bytes) (h : 9 ≤ raw.length) :
    buildFrameHeader raw = .ok {
      length := UInt32.ofNat (beValue (raw.take 3))
      type := raw[3]
      flags := raw[4]
      reserved := UInt8.ofNat (beValue ((raw.drop 5).take 4) / 2 ^ 31)
      streamId := UInt32.ofNat (beValue ((raw.drop 5).take 4) % 2 ^ 31) } := by
  unfold buildFrameHeader
  have h3 : readAt raw 3 = .ok raw[3] := by
    unfold readAt; rw [List.getElem?_eq_getElem (by omega)]
  have h4 : readAt raw 4 = .ok raw[4] := by
    unfold readAt; rw [List.getElem?_eq_getElem (by omega)]
  rw [bytes2integral_ok (by omega) (by omega), h3, h4,
    bytes2integral_ok (by omega) (by simp; omega)]
  simp only [Res.ok_bind, Res.pure_eq, highBits_eq, lowBits_eq]
  have hlen : beValue (raw.take 4) / 2 ^ (32 - 24) = beValue (raw.take 3) := by
    have : raw.take 4 = raw.take 3 ++ [raw[3]] := by
      rw [List.take_append_getElem]
    rw [this, beValue_append]
    have hb : raw[3].toNat < 256 := raw[3].toNat_lt
    simp [beValue_cons]
    omega
  rw [hlen]

theorem buildFrameHeader_short (raw : Bytes) (h : raw.length < 9) :
    buildFrameHeader raw = .ub .outOfBounds := by
  unfold buildFrameHeader
  by_cases h4 : raw.length < 4
  · rw [bytes2integral_short (by omega) h4]; rfl
  · rw [bytes2integral_ok (by omega) (by omega)]
    have h3 : readAt raw 3 = .ok raw[3] := by
      unfold readAt; rw [List.getElem?_eq_getElem (by omega)]
    rw [h3]
    simp only [Res.ok_bind]
    by_cases h5 : raw.length < 5
    · unfold readAt; rw [List.getElem?_eq_none (by omega)]; rfl
    · unfold readAt; rw [List.getElem?_eq_getElem (by omega)]
      simp only [Res.ok_bind]
      rw [bytes2integral_short (by omega) (by simp; omega)]
      rfl

/-- Parsing the serialization of any header, whatever follows. -/
theorem buildFrameHeader_serialize [Platform] (fh : FrameHeader) (rest : Bytes) :
    buildFrameHeader (fh.serialize ++ rest) = .ok {
      length := UInt32.ofNat (fh.length.toNat % 2 ^ 24)
      type := fh.type
      flags := fh.flags
      reserved := UInt8.ofNat (fh.reserved.toNat % 2 ||| fh.streamId.toNat / 2 ^ 31)
      streamId := UInt32.ofNat (fh.streamId.toNat % 2 ^ 31) } := by
  rw [buildFrameHeader_eq _ (by simp)]
  have hs : fh.streamId.toNat < 2 ^ 32 := fh.streamId.toNat_lt
  have h3 : (fh.serialize ++ rest).take 3 = be 3 fh.length.toNat := by
    rw [FrameHeader.serialize_eq]; rfl
  have h5 : ((fh.serialize ++ rest).drop 5).take 4 =
      be 4 ((lowBits 1 fh.reserved.toNat <<< 31) ||| fh.streamId.toNat) := by
    rw [FrameHeader.serialize_eq]; rfl
  have ht : (fh.serialize ++ rest)[3]? = some fh.type := by
    rw [FrameHeader.serialize_eq]; rfl
  have hf : (fh.serialize ++ rest)[4]? = some fh.flags := by
    rw [FrameHeader.serialize_eq]; rfl
  have ht' := (List.getElem?_eq_some_iff.mp ht).2
  have hf' := (List.getElem?_eq_some_iff.mp hf).2
  rw [h3, h5, ht', hf', beValue_be, beValue_be, or_high_bit_general]
  have hbit : fh.reserved.toNat % 2 ||| fh.streamId.toNat / 2 ^ 31 < 2 :=
    bit_or_lt _ _ (Nat.mod_lt _ (by omega)) (by omega)
  generalize fh.reserved.toNat % 2 ||| fh.streamId.toNat / 2 ^ 31 = r at hbit
  have e1 : (r * 2 ^ 31 + fh.streamId.toNat % 2 ^ 31) % 256 ^ 4 / 2 ^ 31 = r := by
    norm_num; omega
  have e2 : (r * 2 ^ 31 + fh.streamId.toNat % 2 ^ 31) % 256 ^ 4 % 2 ^ 31
      = fh.streamId.toNat % 2 ^ 31 := by
    omega
  rw [e1, e2]
  norm_num

end Mh2c
