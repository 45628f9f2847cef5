/-
Model of mh2c/util/bit_operation.{h,ipp}, mh2c/util/byte_order.{h,cpp,ipp}.
-/
import Verif.Basic

namespace Mh2c

/-- mh2c/util/bit_operation.ipp:13-16 `extract_low_bit<N>` for a constant `N < 32` (all uses in the
library): `bits & ((1u << N) - 1u)`. -/
def lowBits (n bits : Nat) : Nat := bits &&& (1 <<< n - 1)

/-- mh2c/util/bit_operation.ipp:13-16 `extract_low_bit<N>` for any `N`: `1u << N` is undefined for
`N >= 32`. -/
def extractLowBit (n bits : Nat) : Res Nat :=
  if n < 32 then .ok (lowBits n bits) else .ub .badShift

/-- mh2c/util/bit_operation.ipp:18-21 `extract_high_bit<N>` for a type of `w` bits and a constant
`0 < N <= w` (all uses in the library). -/
def highBits (w n bits : Nat) : Nat := bits >>> (w - n)

/-- mh2c/util/bit_operation.ipp:18-21 `extract_high_bit<N>` for any `N`. `sizeof(T) * 8u - N` is an
unsigned subtraction: for `N > w` it wraps to a huge shift. The shift is performed in the promoted
type (at least 32 bits). -/
def extractHighBit (w n bits : Nat) : Res Nat :=
  if n ≤ w ∧ w - n < max w 32 then .ok (highBits w n bits) else .ub .badShift

/-- mh2c/util/bit_operation.ipp:23-32 `is_flag_set` (both overloads; an enum flag is its
underlying value). -/
def isFlagSet (flags flag : UInt8) : Bool :=
  if flag == 0 then flags == flag else (flags &&& flag) == flag

/-- Object representation of an unsigned integer of `size` octets, as seen through
`reinterpret_cast<const uint8_t*>` (for example mh2c/frame/frame_header.cpp:25): least significant
octet first on a little-endian host. -/
def littleBytes : Nat → Nat → Bytes
  | 0, _ => []
  | size + 1, x => u8 (x % 256) :: littleBytes size (x / 256)

/-- Object representation on the host, for example of `length` in mh2c/frame/frame_header.cpp:25-27. -/
def memBytes [P : Platform] (size x : Nat) : Bytes :=
  if P.bigEndian then (littleBytes size x).reverse else littleBytes size x

/-- Value of a little-endian octet string, for the octet swap of mh2c/util/byte_order.cpp:12-18. -/
def littleValue : Bytes → Nat
  | [] => 0
  | b :: bs => b.toNat + 256 * littleValue bs

/-- mh2c/util/byte_order.cpp:16-18 `cvt_host2net` (htons/htonl): identity on a big-endian host,
octet swap on a little-endian one. -/
def hostToNet [P : Platform] (size x : Nat) : Nat :=
  if P.bigEndian then x else littleValue (littleBytes size x).reverse

/-- mh2c/util/byte_order.cpp:12-14 `cvt_net2host` (ntohs/ntohl). -/
def netToHost [P : Platform] (size x : Nat) : Nat :=
  if P.bigEndian then x else littleValue (littleBytes size x).reverse

/-- The idiom used by every `serialize`: convert with `cvt_host2net`, then copy the object
representation (e.g. mh2c/frame/frame_header.cpp:37-44). -/
def netBytes [Platform] (size x : Nat) : Bytes := memBytes size (hostToNet size x)

/-- The loop of mh2c/util/byte_order.ipp:26-29: `left` octets to go, `acc` the partial result,
`size` the width of the result type in octets (sums wrap). -/
def bytes2integralLoop (size : Nat) : (left : Nat) → Bytes → (acc : Nat) → Res Nat
  | 0, _, acc => .ok acc
  | _ + 1, [], _ => .ub .outOfBounds
  | left + 1, b :: bs, acc => do
      let t ← shlInt b.toNat (left * 8)
      bytes2integralLoop size left bs ((acc + t) % 2 ^ (8 * size))

/-- mh2c/util/byte_order.ipp:19-32 `bytes2integral<T>` with `sizeof(T) == size`, started at the
first octet of `v`. Reads exactly `size` octets; past the end is undefined. -/
def bytes2integral (size : Nat) (v : Bytes) : Res Nat := bytes2integralLoop size size v 0

/-- mh2c/util/byte_order.ipp:34-47 `integral2bytes`: most significant octet first. -/
def integral2bytes (size x : Nat) : Bytes :=
  (List.range size).reverse.map fun i => u8 (lowBits 8 (x >>> (8 * i)))

end Mh2c
