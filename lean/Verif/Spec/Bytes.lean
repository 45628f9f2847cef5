/-
Specification: big-endian ("network order") octet strings.
-/
namespace Rfc

/-- The integer denoted by an octet string, most significant octet first. -/
def beValue (v : List UInt8) : Nat := v.foldl (fun acc b => 256 * acc + b.toNat) 0

/-- The `size` octets of `x mod 256^size`, most significant first. -/
def be : (size x : Nat) → List UInt8
  | 0, _ => []
  | size + 1, x => UInt8.ofNat (x / 256 ^ size % 256) :: be size x

end Rfc
