/-
Vocabulary for the header codec properties: how entries of the client's API relate to the
representations of RFC 7541, and the size limits of the client's decoder.
-/
import Verif.Spec.Hpack
import Verif.Model.DynamicTable

namespace Mh2c

open Rfc

/-- Octets the text of a string takes on the wire (without its length prefix). -/
def wireLength (s : Bytes) (mode : EncodeMode) : Nat :=
  match mode with
  | .none => s.length
  | .huffman => ((s.flatMap fun b => huffCode b.toNat).length + 7) / 8

/-- The platform tolerates forming `v[v.size()]`, or there is no need to: the string is not empty. -/
def Tolerant [P : Platform] (s : Bytes) : Prop := P.strictIndex = false ∨ s ≠ []

/-- The header is an entry of the static table with a value, or an entry of the dynamic table. -/
def InTables (h : Header) (table : DynamicTable) : Prop :=
  (h.2 ≠ [] ∧ ∃ i, staticTableEntries.lookup i = some h) ∨ h ∈ table.entries

/-- The prefix asks for a literal representation. -/
def IsLiteral (p : HeaderPrefix) : Prop :=
  p = .incrementalIndexing ∨ p = .withoutIndexing ∨ p = .neverIndexed

/-- The variant held by an entry is the one its prefix calls for. -/
def WellTyped (e : HeaderEntry) : Prop :=
  (e.pfx = .sizeUpdate ∧ ∃ n, e.entry = .maxSize n) ∨
  (e.pfx ≠ .sizeUpdate ∧ ∃ h, e.entry = .header h)

/-- The entry the API delivers for a representation. -/
def entryOf : Item → HeaderEntry
  | .indexed f => .ofHeader .indexed f
  | .incremental f => .ofHeader .incrementalIndexing f
  | .withoutIndexing f => .ofHeader .withoutIndexing f
  | .neverIndexed f => .ofHeader .neverIndexed f
  | .sizeUpdate n => .ofSize .sizeUpdate n

/-- The representation that should be sent for an entry, given the table it is encoded against. -/
inductive SentAs (table : DynamicTable) : HeaderEntry → Item → Prop
  | size (n : Nat) : SentAs table ⟨.sizeUpdate, .maxSize n⟩ (.sizeUpdate n)
  | hit (p : HeaderPrefix) (h : Header) (hp : p ≠ .sizeUpdate) (hh : InTables h table) :
      SentAs table ⟨p, .header h⟩ (.indexed h)
  | incremental (h : Header) (hh : ¬ InTables h table) :
      SentAs table ⟨.incrementalIndexing, .header h⟩ (.incremental h)
  | withoutIndexing (h : Header) (hh : ¬ InTables h table) :
      SentAs table ⟨.withoutIndexing, .header h⟩ (.withoutIndexing h)
  | neverIndexed (h : Header) (hh : ¬ InTables h table) :
      SentAs table ⟨.neverIndexed, .header h⟩ (.neverIndexed h)

/-- Strings of an item that the client's decoder can form. -/
def ItemTolerant [Platform] : Item → Prop
  | .indexed _ => True
  | .incremental f => Tolerant f.1 ∧ Tolerant f.2
  | .withoutIndexing f => Tolerant f.1 ∧ Tolerant f.2
  | .neverIndexed f => Tolerant f.1 ∧ Tolerant f.2
  | .sizeUpdate _ => True

/-- Limits of the client's decoder for what the client itself wrote: integers below 2^31 plus the
capacity of their prefix, no empty literal on a platform that objects to `v[v.size()]`. -/
def ItemReadable [Platform] (mode : EncodeMode) : Item → Prop
  | .sizeUpdate n => n < 2 ^ 31 + 31
  | .indexed _ => True
  | .incremental f | .withoutIndexing f | .neverIndexed f =>
      wireLength f.1 mode < 2 ^ 31 + 127 ∧ wireLength f.2 mode < 2 ^ 31 + 127 ∧
      Tolerant f.1 ∧ Tolerant f.2

/-- The header list of a block of entries, in order. -/
def headersOf (block : HeaderBlock) : List Header :=
  block.filterMap fun e => match e.entry with | .header h => some h | .maxSize _ => none

/-- The name at static index 20 in the client's table. -/
def mistypedName : Bytes := bstr "accept-control-allow-origin"

/-- A header that is only found in the dynamic table. -/
def HitsDynamic (table : DynamicTable) (e : HeaderEntry) : Prop :=
  ∃ h, e.entry = .header h ∧ h ∈ table.entries ∧
    ¬ (h.2 ≠ [] ∧ ∃ i, staticTableEntries.lookup i = some h)

/-- An entry that may change which headers the dynamic table holds where. -/
def ChangesTable (table : DynamicTable) (e : HeaderEntry) : Prop :=
  (∃ n, e.entry = .maxSize n ∧ n < tableSize table.entries) ∨
  (∃ h, e = ⟨.incrementalIndexing, .header h⟩ ∧ ¬ InTables h table)

/-- What a block does to a table that fits everything it inserts (`max`: maximum in force). -/
def Fits : (max : Nat) → List Item → Prop
  | _, [] => True
  | max, .incremental f :: is => f.1.length + f.2.length + 32 ≤ max ∧ Fits max is
  | _, .sizeUpdate n :: is => n < 2 ^ 63 ∧ Fits n is
  | max, .indexed _ :: is => Fits max is
  | max, .withoutIndexing _ :: is => Fits max is
  | max, .neverIndexed _ :: is => Fits max is

/-- Entries that can be sent and read back: typed; a header without a table entry needs a literal
prefix; the limits of the integer decoder. -/
def Sendable [Platform] (table : DynamicTable) (mode : EncodeMode) (e : HeaderEntry) : Prop :=
  match e.entry with
  | .maxSize n => e.pfx = .sizeUpdate ∧ n < 2 ^ 31 + 31
  | .header h => e.pfx ≠ .sizeUpdate ∧ (InTables h table ∨
      (e.pfx ≠ .indexed ∧ wireLength h.1 mode < 2 ^ 31 + 127 ∧
        wireLength h.2 mode < 2 ^ 31 + 127 ∧ Tolerant h.1 ∧ Tolerant h.2))

/-- Every header a block inserts fits the table as sized at that time. -/
def InsertsFit : (max : Nat) → HeaderBlock → Prop
  | _, [] => True
  | max, ⟨.incrementalIndexing, .header h⟩ :: es => entrySize h ≤ max ∧ InsertsFit max es
  | _, ⟨.sizeUpdate, .maxSize n⟩ :: es => InsertsFit n es
  | max, _ :: es => InsertsFit max es

/-- No dynamic table entry has an empty name. -/
def NamedTable (table : DynamicTable) : Prop := ∀ h ∈ table.entries, h.1 ≠ []

/-- Bits of the index of a representation that starts with octet `b` (none: size update). -/
def indexBits (b : UInt8) : Option Nat :=
  if 128 ≤ b.toNat then some 7
  else if 64 ≤ b.toNat then some 6
  else if 32 ≤ b.toNat then none
  else some 4

/-- Room for one entry. For a header without Huffman coding it is the header's part of the header
list size of RFC 7540 section 6.5.2 (name, value and 32 octets); with Huffman coding a character
takes up to 30 bits. A size update is one integer. -/
def entryRoom (mode : EncodeMode) (e : HeaderEntry) : Nat :=
  match e.entry, mode with
  | .header h, .none => h.1.length + h.2.length + 32
  | .header h, .huffman => 4 * (h.1.length + h.2.length) + 32
  | .maxSize _, _ => 32

/-- The sizes are below what a 64-bit `size_t` can count. -/
def EntryCounts (e : HeaderEntry) : Prop :=
  match e.entry with
  | .header h => h.1.length < 2 ^ 61 ∧ h.2.length < 2 ^ 61
  | .maxSize n => n < 2 ^ 64

/-- The characters of ordinary header text: letters, digits, space and ``% - . / = _ : & * , ;``. -/
def ordinaryText : String :=
  "ABCDEFGHIJKLMNOPQRSTUVWXYZabcdefghijklmnopqrstuvwxyz0123456789 %-./=_:&*,;"

/-- Every octet of the string is an ordinary character. -/
def Ordinary (s : Bytes) : Prop := ∀ b ∈ s, Char.ofNat b.toNat ∈ ordinaryText.toList

/-- Name and value of the header are ordinary text. -/
def OrdinaryEntry (e : HeaderEntry) : Prop :=
  match e.entry with
  | .header h => Ordinary h.1 ∧ Ordinary h.2
  | .maxSize _ => True

end Mh2c
