/-
Specification: the octets of header field representations, following the encoding procedures of
RFC 7541 sections 5 and 6.
-/
import Verif.Spec.Wire

namespace Rfc

/-- The loop of the encoding procedure of RFC 7541 5.1:
```
while I >= 128
    encode (I % 128 + 128) on 8 bits
    I = I / 128
encode I on 8 bits
``` -/
def intGroups (i : Nat) : List UInt8 :=
  if i < 128 then [UInt8.ofNat i] else UInt8.ofNat (i % 128 + 128) :: intGroups (i / 128)
termination_by i
decreasing_by omega

/-- RFC 7541 5.1: the integer `i` with an `n`-bit prefix, below the bits `pattern` of the first
octet. -/
def intOctets (pattern n i : Nat) : List UInt8 :=
  if i < 2 ^ n - 1 then [UInt8.ofNat (pattern + i)]
  else UInt8.ofNat (pattern + (2 ^ n - 1)) :: intGroups (i - (2 ^ n - 1))

end Rfc

namespace Mh2c

open Rfc

/-- RFC 7541 5.2: the octets of a string in the given encoding. -/
inductive StringOctets : EncodeMode → (s octets : Bytes) → Prop
  | plain (s : Bytes) : StringOctets .none s (intOctets 0 7 s.length ++ s)
  | coded (s data : Bytes) (h : HuffDecodes data s) :
      StringOctets .huffman s (intOctets 128 7 data.length ++ data)

/-- RFC 7541 section 6: the first bits of a representation and the bits left for its number. -/
def representation : HeaderPrefix → Nat × Nat
  | .indexed => (128, 7)
  | .incrementalIndexing => (64, 6)
  | .sizeUpdate => (32, 5)
  | .neverIndexed => (16, 4)
  | .withoutIndexing => (0, 4)

/-- The octets the client sends for an entry of a header block.
* A size update is sent as such.
* A header in the static table with a value is sent as its index there.
* Else a header in the dynamic table is sent as the index of its newest copy there.
* Else the name is sent as an index if the static table has it with an empty value, and is spelled
  out otherwise; the value is spelled out. -/
inductive EntryOctets (table : DynamicTable) (mode : EncodeMode) : HeaderEntry → Bytes → Prop
  | size (n : Nat) : EntryOctets table mode ⟨.sizeUpdate, .maxSize n⟩ (intOctets 32 5 n)
  | static (p : HeaderPrefix) (h : Header) (i : Nat) (hp : p ≠ .sizeUpdate) (hv : h.2 ≠ [])
      (hi : staticTableEntries.lookup i = some h) :
      EntryOctets table mode ⟨p, .header h⟩ (intOctets 128 7 i)
  | dynamic (p : HeaderPrefix) (h : Header) (i : Nat) (hp : p ≠ .sizeUpdate)
      (hs : ¬ (h.2 ≠ [] ∧ ∃ i, staticTableEntries.lookup i = some h))
      (hi : table.entries[i]? = some h) (hfirst : ∀ j, j < i → table.entries[j]? ≠ some h) :
      EntryOctets table mode ⟨p, .header h⟩ (intOctets 128 7 (62 + i))
  | indexedName (p : HeaderPrefix) (h : Header) (i : Nat) (value : Bytes) (hp : p ≠ .sizeUpdate)
      (hh : ¬ InTables h table) (hi : staticTableEntries.lookup i = some (h.1, []))
      (hv : StringOctets mode h.2 value) :
      EntryOctets table mode ⟨p, .header h⟩
        (intOctets (representation p).1 (representation p).2 i ++ value)
  | newName (p : HeaderPrefix) (h : Header) (name value : Bytes) (hp : p ≠ .sizeUpdate)
      (hh : ¬ InTables h table) (hi : ∀ i, staticTableEntries.lookup i ≠ some (h.1, []))
      (hn : StringOctets mode h.1 name) (hv : StringOctets mode h.2 value) :
      EntryOctets table mode ⟨p, .header h⟩
        (intOctets (representation p).1 (representation p).2 0 ++ name ++ value)

end Mh2c
