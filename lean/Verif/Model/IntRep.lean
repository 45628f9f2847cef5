/-
Model of mh2c/hpack/integer_representation.{h,ipp}.
-/
import Verif.Basic

namespace Mh2c

/-- mh2c/hpack/integer_representation.ipp:28-33: the `while` loop and the final `push_back`. -/
def encodeIntTail (value : Nat) : Bytes :=
  if value ≥ 128 then u8 (value % 128 + 128) :: encodeIntTail (value / 128)
  else [u8 value]
termination_by value
decreasing_by omega

/-- mh2c/hpack/integer_representation.ipp:15-36 `encode_integer_value<N>`. -/
def encodeIntegerValue (n value : Nat) : Bytes :=
  let maxValue := 2 ^ n - 1
  if value < maxValue then [u8 value]
  else u8 maxValue :: encodeIntTail (value - maxValue)

/-- mh2c/hpack/integer_representation.ipp:52-56: the `do ... while` loop, at the octet
`*(++iter)`. `m` is the shift, `acc` is `decoded_value`.
`1 << m` is undefined for `m >= 32` (and `m` is a multiple of 7, so never 31);
the product of two `int`s is undefined above `INT_MAX`; the sum is in `uint32_t` and wraps. -/
def decodeIntLoop : Bytes → (m acc : Nat) → Res Nat
  | [], _, _ => .ub .outOfBounds
  | b :: bs, m, acc =>
      if m ≥ 32 then .ub .badShift
      else if (b.toNat &&& 127) * 2 ^ m ≥ 2 ^ 31 then .ub .signedOverflow
      else
        let acc' := (acc + (b.toNat &&& 127) * 2 ^ m) % 2 ^ 32
        if b.toNat &&& 128 = 128 then decodeIntLoop bs (m + 7) acc' else .ok acc'

/-- mh2c/hpack/integer_representation.ipp:39-59 `decode_integer_value<N>`. -/
def decodeIntegerValue (n : Nat) : Bytes → Res Nat
  | [] => .ub .outOfBounds
  | b :: bs =>
      let maxValue := 2 ^ n - 1
      let decoded := b.toNat &&& maxValue
      if decoded < maxValue then .ok decoded else decodeIntLoop bs 0 decoded

end Mh2c
