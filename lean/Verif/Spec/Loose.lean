/-
Vocabulary for C121: the language of header blocks the client understands, as a variant of the one of
RFC 7541 (`Spec/Hpack.lean`). Each difference is marked.
-/
import Verif.Spec.Wire
import Verif.Spec.Hpack

namespace Mh2c

open Rfc

/-- `k` octets are needed for an integer of this value with an `n`-bit prefix: the length of the
shortest representation. -/
def ShortestInt (n v k : Nat) : Prop :=
  (∃ bs, intDecode n bs = some (v, []) ∧ bs.length = k) ∧
    ∀ bs, intDecode n bs = some (v, []) → k ≤ bs.length

/-- An integer of RFC 7541 5.1 with an `n`-bit prefix. Differences: at most six octets; a limit on the
value; what follows is looked for after as many octets as the shortest form of the value has, even if
the integer is written in a longer form. -/
def LooseInt (n : Nat) (bs : Bytes) (v : Nat) (rest : Bytes) : Prop :=
  ∃ r k, intDecode n bs = some (v, r) ∧ bs.length - r.length ≤ 6 ∧ v < 2 ^ 31 + 2 ^ n - 1 ∧
    ShortestInt n v k ∧ rest = bs.drop k

/-- A string in Huffman code. Differences: EOS is a symbol like any other and stands for octet 0; the
fewer than eight bits of padding need not be ones. -/
def LooseHuffman (data s : Bytes) : Prop :=
  ∃ (syms : List Nat) (pad : List Bool),
    bytesBits data = syms.flatMap huffCode ++ pad ∧ (∀ x ∈ syms, x ≤ 256) ∧ pad.length < 8 ∧
      (∀ x ≤ 256, ¬ huffCode x <+: pad) ∧ s = syms.map fun x => UInt8.ofNat (x % 256)

/-- A string literal of RFC 7541 5.2. Differences: those of integers and Huffman code; on a platform
that objects to `v[v.size()]`, not an empty string at the end of the block nor an empty string in
Huffman code. -/
def LooseString [P : Platform] (bs s rest : Bytes) : Prop :=
  ∃ b tail data, bs = b :: tail ∧ LooseInt 7 bs data.length (data ++ rest) ∧
    ((b.toNat < 128 ∧ s = data ∧ (P.strictIndex = true → data ++ rest ≠ [])) ∨
     (128 ≤ b.toNat ∧ LooseHuffman data s ∧ (P.strictIndex = true → s ≠ [])))

/-- The field of an index. Differences: index 0 is an empty field; the name of index 20 is mistyped. -/
def looseField (entries : List Field) (i : Nat) : Option Field :=
  if i = 0 then some ([], [])
  else if i = 20 then some (mistypedName, [])
  else if i ≤ 61 then staticTable[i - 1]?
  else entries[i - 62]?

/-- A literal of RFC 7541 6.2 with an `n`-bit index. Difference: a reference to an entry with an empty
name is read like index 0, the name follows. -/
def LooseLiteral [Platform] (entries : List Field) (n : Nat) (bs : Bytes) (f : Field) (rest : Bytes) :
    Prop :=
  ∃ i rest1 named, LooseInt n bs i rest1 ∧ looseField entries i = some named ∧
    ((named.1 ≠ [] ∧ f.1 = named.1 ∧ LooseString rest1 f.2 rest) ∨
     (named.1 = [] ∧ ∃ rest2, LooseString rest1 f.1 rest2 ∧ LooseString rest2 f.2 rest))

/-- RFC 7541 section 6, the patterns of the first octet. -/
inductive LooseItem [Platform] (entries : List Field) : (bs : Bytes) → Item → (rest : Bytes) → Prop
  /-- 1xxxxxxx -/
  | indexed (b : UInt8) (bs rest : Bytes) (i : Nat) (f : Field) (hb : 128 ≤ b.toNat)
      (hi : LooseInt 7 (b :: bs) i rest) (hf : looseField entries i = some f) :
      LooseItem entries (b :: bs) (.indexed f) rest
  /-- 01xxxxxx -/
  | incremental (b : UInt8) (bs rest : Bytes) (f : Field) (hb : 64 ≤ b.toNat ∧ b.toNat < 128)
      (hl : LooseLiteral entries 6 (b :: bs) f rest) : LooseItem entries (b :: bs) (.incremental f) rest
  /-- 001xxxxx -/
  | sizeUpdate (b : UInt8) (bs rest : Bytes) (n : Nat) (hb : 32 ≤ b.toNat ∧ b.toNat < 64)
      (hi : LooseInt 5 (b :: bs) n rest) : LooseItem entries (b :: bs) (.sizeUpdate n) rest
  /-- 0001xxxx -/
  | neverIndexed (b : UInt8) (bs rest : Bytes) (f : Field) (hb : 16 ≤ b.toNat ∧ b.toNat < 32)
      (hl : LooseLiteral entries 4 (b :: bs) f rest) : LooseItem entries (b :: bs) (.neverIndexed f) rest
  /-- 0000xxxx -/
  | withoutIndexing (b : UInt8) (bs rest : Bytes) (f : Field) (hb : b.toNat < 16)
      (hl : LooseLiteral entries 4 (b :: bs) f rest) :
      LooseItem entries (b :: bs) (.withoutIndexing f) rest

/-- A sequence of representations and what follows it. Difference to `BlockDecodes`: all of them refer
to the table as it was before the block. -/
inductive LooseItems [Platform] (entries : List Field) : (bs : Bytes) → List Item → (rest : Bytes) → Prop
  | nil (bs : Bytes) : LooseItems entries bs [] bs
  | cons (bs mid rest : Bytes) (item : Item) (items : List Item) (hi : LooseItem entries bs item mid)
      (hr : LooseItems entries mid items rest) : LooseItems entries bs (item :: items) rest

/-- A string literal with the H bit set whose octets are no Huffman code. -/
def BadString (bs : Bytes) : Prop :=
  ∃ b tail data rest, bs = b :: tail ∧ LooseInt 7 bs data.length (data ++ rest) ∧ 128 ≤ b.toNat ∧
    ¬ ∃ s, LooseHuffman data s

/-- A representation with an index that is in none of the tables. -/
def MissingItem (entries : List Field) (bs : Bytes) : Prop :=
  ∃ b tail n i rest, bs = b :: tail ∧ indexBits b = some n ∧ LooseInt n bs i rest ∧
    61 + entries.length < i

/-- A literal whose name or value is a bad string. -/
def BadStringItem [Platform] (entries : List Field) (bs : Bytes) : Prop :=
  ∃ b tail n i rest1 named, bs = b :: tail ∧ b.toNat < 128 ∧ indexBits b = some n ∧
    LooseInt n bs i rest1 ∧ looseField entries i = some named ∧
    (BadString rest1 ∨
      (named.1 = [] ∧ ∃ name rest2, LooseString rest1 name rest2 ∧ BadString rest2))

/-- The client reads the block as these entries (C121). -/
def ReadsAs [Platform] (entries : List Field) (bs : Bytes) (es : HeaderBlock) : Prop :=
  ∃ items, LooseItems entries bs items [] ∧ es = items.map entryOf

/-- The client rejects the block with this exception (C121). -/
def Rejects [Platform] (entries : List Field) (bs : Bytes) (e : Exc) : Prop :=
  ∃ items rest, LooseItems entries bs items rest ∧
    ((e = .outOfRange ∧ MissingItem entries rest) ∨ (e = .invalidArgument ∧ BadStringItem entries rest))

end Mh2c
