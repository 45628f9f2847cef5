/-
Specification: the Huffman code of RFC 7541 section 5.2 and Appendix B.

The code is canonical, so it is given by the code lengths alone: codes are assigned in order of
increasing length, then of increasing symbol, counting upwards.
-/
namespace Rfc

/-- `n` bits of `x`, most significant first. -/
def bits : (n x : Nat) → List Bool
  | 0, _ => []
  | n + 1, x => x.testBit n :: bits n x

/-- The bits of an octet string, most significant bit of each octet first. -/
def bytesBits (v : List UInt8) : List Bool := v.flatMap fun b => bits 8 b.toNat

/-- Lengths of the codes of RFC 7541 Appendix B, for the symbols 0..255 and EOS (256). -/
def huffLengths : List Nat := [
  13, 23, 28, 28, 28, 28, 28, 28, 28, 24, 30, 28, 28, 30, 28, 28,
  28, 28, 28, 28, 28, 28, 30, 28, 28, 28, 28, 28, 28, 28, 28, 28,
  6, 10, 10, 12, 13, 6, 8, 11, 10, 10, 8, 11, 8, 6, 6, 6,
  5, 5, 5, 6, 6, 6, 6, 6, 6, 6, 7, 8, 15, 6, 12, 10,
  13, 6, 7, 7, 7, 7, 7, 7, 7, 7, 7, 7, 7, 7, 7, 7,
  7, 7, 7, 7, 7, 7, 7, 7, 8, 7, 8, 13, 19, 13, 14, 6,
  15, 5, 6, 5, 6, 5, 6, 6, 6, 5, 7, 7, 6, 6, 6, 5,
  6, 7, 6, 5, 5, 6, 7, 7, 7, 7, 7, 15, 11, 14, 13, 28,
  20, 22, 20, 20, 22, 22, 22, 23, 22, 23, 23, 23, 23, 23, 24, 23,
  24, 24, 22, 23, 24, 23, 23, 23, 23, 21, 22, 23, 22, 23, 23, 24,
  22, 21, 20, 22, 22, 23, 23, 21, 23, 22, 22, 24, 21, 22, 23, 23,
  21, 21, 22, 21, 23, 22, 23, 23, 20, 22, 22, 22, 23, 22, 22, 23,
  26, 26, 20, 19, 22, 23, 22, 25, 26, 26, 26, 27, 27, 26, 24, 25,
  19, 21, 26, 27, 27, 26, 27, 24, 21, 21, 26, 26, 28, 27, 27, 27,
  20, 24, 20, 21, 22, 21, 21, 23, 22, 22, 25, 25, 24, 24, 26, 23,
  26, 27, 26, 26, 27, 27, 27, 27, 27, 28, 27, 27, 27, 27, 27, 26,
  30]

/-- Symbols with their code lengths, by increasing length, then increasing symbol. -/
def huffOrder : List (Nat × Nat) :=
  (List.range 31).flatMap fun n =>
    (huffLengths.zipIdx.filter fun p => p.1 == n).map fun p => (p.2, n)

/-- Assign consecutive codes: `next` is the next free code of `len` bits. Result: symbol, length,
code. -/
def huffAssign : List (Nat × Nat) → (next len : Nat) → List (Nat × Nat × Nat)
  | [], _, _ => []
  | (s, n) :: rest, next, len =>
      (s, n, next * 2 ^ (n - len)) :: huffAssign rest (next * 2 ^ (n - len) + 1) n

/-- The code: symbol, length, value. -/
def huffTable : List (Nat × Nat × Nat) := huffAssign huffOrder 0 0

/-- The code of a symbol as a bit string (empty for non-symbols). -/
def huffCode (s : Nat) : List Bool :=
  match huffTable.lookup s with
  | some (n, v) => bits n v
  | none => []

/-- The end-of-string symbol. -/
def eos : Nat := 256

/-- RFC 7541 5.2: `enc` is a Huffman encoding of `s`: the codes of the octets of `s` followed by
fewer than eight bits of padding, all 1. -/
def HuffDecodes (enc s : List UInt8) : Prop :=
  ∃ pad, bytesBits enc = (s.flatMap fun b => huffCode b.toNat) ++ pad ∧ pad.length < 8 ∧
    ∀ b ∈ pad, b = true

end Rfc
