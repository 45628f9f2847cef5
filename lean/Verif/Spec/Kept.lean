/-
Specification vocabulary for C32: which references of a block keep their meaning.
-/
import Verif.Spec.Wire

namespace Mh2c

open Rfc

/-- One representation of a block: the peer's table when it is read, the octets from its first one to
the end of the block, and what RFC 7541 says it is. -/
structure BlockStep where
  table : Table
  octets : Bytes
  item : Item

/-- A block as RFC 7541 reads it, representation by representation, with every integer in its
shortest form and below 2^31. -/
inductive ShortBlock : Table → Bytes → List BlockStep → Table → Prop
  | nil (t : Table) : ShortBlock t [] [] t
  | cons (t t' : Table) (bs rest : Bytes) (item : Item) (steps : List BlockStep)
      (hi : ItemAt intDecodeMinimal t.get? t.get? bs item rest)
      (hr : ShortBlock (item.apply t) rest steps t') :
      ShortBlock t bs (⟨t, bs, item⟩ :: steps) t'

/-- RFC 7541 6.1: the index of the indexed representation the octets start with, if they do. -/
def fieldIndex : Bytes → Option Nat
  | [] => none
  | b :: bs => if 128 ≤ b.toNat then (intDecode 7 (b :: bs)).map (·.1) else none

/-- RFC 7541 6.2: the index from which the literal the octets start with takes its name, if they do
(0 when the name is spelt out). -/
def nameIndex : Bytes → Option Nat
  | [] => none
  | b :: bs =>
      if 128 ≤ b.toNat then none
      else if 64 ≤ b.toNat then (intDecode 6 (b :: bs)).map (·.1)
      else if 32 ≤ b.toNat then none
      else (intDecode 4 (b :: bs)).map (·.1)

/-- What an index denotes to a reader whose table is `t0` and who has a misprint at index 20. -/
def misprinted (t0 : Table) (i : Nat) : Option Field :=
  if i = 20 then some (mistypedName, []) else t0.get? i

/-- The reference of a representation, if it has one, denotes in `t0` (with the misprint) what it
denotes in the table it is meant for: the same field for an indexed representation, a field of the
same name for a literal. -/
def Kept (t0 : Table) (s : BlockStep) : Prop :=
  (∀ i, fieldIndex s.octets = some i → misprinted t0 i = s.table.get? i) ∧
  (∀ i, nameIndex s.octets = some i → i ≠ 0 →
    (misprinted t0 i).map (·.1) = (s.table.get? i).map (·.1))

end Mh2c
