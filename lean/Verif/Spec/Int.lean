/-
Specification: the integer representation of RFC 7541 section 5.1.
-/
namespace Rfc

/-- The repeat loop of the decoding procedure of RFC 7541 5.1:
```
repeat
    B = next octet
    I = I + (B & 127) * 2^M
    M = M + 7
while B & 128 == 128
return I
```
Result: the integer and the octets after it; `none` if the octets end too early. -/
def intLoop : List UInt8 → (m i : Nat) → Option (Nat × List UInt8)
  | [], _, _ => none
  | b :: bs, m, i =>
      if b.toNat ≥ 128 then intLoop bs (m + 7) (i + b.toNat % 128 * 2 ^ m)
      else some (i + b.toNat % 128 * 2 ^ m, bs)

/-- Decode an integer with an `n`-bit prefix (RFC 7541 5.1). The bits of the first octet above the
prefix are ignored. -/
def intDecode (n : Nat) : List UInt8 → Option (Nat × List UInt8)
  | [] => none
  | b :: bs =>
      if b.toNat % 2 ^ n < 2 ^ n - 1 then some (b.toNat % 2 ^ n, bs)
      else intLoop bs 0 (b.toNat % 2 ^ n)

/-- The same, restricted to representations without superfluous octets (the form every encoder in
practice produces) of integers below 2^31. -/
def intDecodeMinimal (n : Nat) (bs : List UInt8) : Option (Nat × List UInt8) :=
  match intDecode n bs with
  | some (v, rest) =>
      let used := bs.length - rest.length
      if v < 2 ^ 31 ∧ (used ≤ 2 ∨ 128 ^ (used - 2) ≤ v - (2 ^ n - 1)) then some (v, rest) else none
  | none => none

end Rfc
