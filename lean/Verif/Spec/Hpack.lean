/-
Specification: HPACK (RFC 7541) as seen by a conforming decoder.
-/
import Verif.Spec.Int
import Verif.Spec.Huffman

namespace Rfc

/-- A header field: name and value. -/
abbrev Field := List UInt8 × List UInt8

/-- The octets of an ASCII string. -/
def ascii (s : String) : List UInt8 := s.toList.map fun c => UInt8.ofNat c.toNat

/-- RFC 7541 Appendix A, entries 1 to 61. -/
def staticTable : List Field := [
  (ascii ":authority", ascii ""),
  (ascii ":method", ascii "GET"),
  (ascii ":method", ascii "POST"),
  (ascii ":path", ascii "/"),
  (ascii ":path", ascii "/index.html"),
  (ascii ":scheme", ascii "http"),
  (ascii ":scheme", ascii "https"),
  (ascii ":status", ascii "200"),
  (ascii ":status", ascii "204"),
  (ascii ":status", ascii "206"),
  (ascii ":status", ascii "304"),
  (ascii ":status", ascii "400"),
  (ascii ":status", ascii "404"),
  (ascii ":status", ascii "500"),
  (ascii "accept-charset", ascii ""),
  (ascii "accept-encoding", ascii "gzip, deflate"),
  (ascii "accept-language", ascii ""),
  (ascii "accept-ranges", ascii ""),
  (ascii "accept", ascii ""),
  (ascii "access-control-allow-origin", ascii ""),
  (ascii "age", ascii ""),
  (ascii "allow", ascii ""),
  (ascii "authorization", ascii ""),
  (ascii "cache-control", ascii ""),
  (ascii "content-disposition", ascii ""),
  (ascii "content-encoding", ascii ""),
  (ascii "content-language", ascii ""),
  (ascii "content-length", ascii ""),
  (ascii "content-location", ascii ""),
  (ascii "content-range", ascii ""),
  (ascii "content-type", ascii ""),
  (ascii "cookie", ascii ""),
  (ascii "date", ascii ""),
  (ascii "etag", ascii ""),
  (ascii "expect", ascii ""),
  (ascii "expires", ascii ""),
  (ascii "from", ascii ""),
  (ascii "host", ascii ""),
  (ascii "if-match", ascii ""),
  (ascii "if-modified-since", ascii ""),
  (ascii "if-none-match", ascii ""),
  (ascii "if-range", ascii ""),
  (ascii "if-unmodified-since", ascii ""),
  (ascii "last-modified", ascii ""),
  (ascii "link", ascii ""),
  (ascii "location", ascii ""),
  (ascii "max-forwards", ascii ""),
  (ascii "proxy-authenticate", ascii ""),
  (ascii "proxy-authorization", ascii ""),
  (ascii "range", ascii ""),
  (ascii "referer", ascii ""),
  (ascii "refresh", ascii ""),
  (ascii "retry-after", ascii ""),
  (ascii "server", ascii ""),
  (ascii "set-cookie", ascii ""),
  (ascii "strict-transport-security", ascii ""),
  (ascii "transfer-encoding", ascii ""),
  (ascii "user-agent", ascii ""),
  (ascii "vary", ascii ""),
  (ascii "via", ascii ""),
  (ascii "www-authenticate", ascii "")]

/-- RFC 7541 4.1: size of an entry. -/
def entrySize (f : Field) : Nat := f.1.length + f.2.length + 32

/-- RFC 7541 4.1: size of a table. -/
def tableSize (es : List Field) : Nat := (es.map entrySize).sum

/-- The longest run of newest entries (head of the list) whose size is at most `budget`:
what remains after evicting from the end until the rest fits. -/
def takeFit : (budget : Nat) → List Field → List Field
  | _, [] => []
  | budget, e :: es => if entrySize e ≤ budget then e :: takeFit (budget - entrySize e) es else []

/-- A dynamic table: entries, newest first, and maximum size. -/
structure Table where
  entries : List Field
  max : Nat

/-- RFC 7541 4.4: insert a field. A field larger than the maximum empties the table. -/
def Table.insert (t : Table) (f : Field) : Table := { t with entries := takeFit t.max (f :: t.entries) }

/-- RFC 7541 4.3: change the maximum size. -/
def Table.setMax (t : Table) (n : Nat) : Table := ⟨takeFit n t.entries, n⟩

/-- RFC 7541 2.3.3: the field an index denotes. -/
def Table.get? (t : Table) (i : Nat) : Option Field :=
  if i = 0 then none
  else if i ≤ 61 then staticTable[i - 1]?
  else t.entries[i - 62]?

/-- How the start of an octet string is read as an integer with an `n`-bit prefix. For RFC 7541
this is `intDecode`; other readers only occur where a theorem restricts the senders it speaks of. -/
abbrev IntReader := Nat → List UInt8 → Option (Nat × List UInt8)

/-- RFC 7541 5.2: `bs` starts with a string literal denoting `s`; `rest` follows it. -/
inductive StringAt (int : IntReader) : (bs s rest : List UInt8) → Prop
  | plain (b : UInt8) (bs data rest : List UInt8) (hb : b.toNat < 128)
      (hi : int 7 (b :: bs) = some (data.length, data ++ rest)) :
      StringAt int (b :: bs) data rest
  | huffman (b : UInt8) (bs data s rest : List UInt8) (hb : 128 ≤ b.toNat)
      (hi : int 7 (b :: bs) = some (data.length, data ++ rest)) (hs : HuffDecodes data s) :
      StringAt int (b :: bs) s rest

/-- RFC 7541 section 6: the representations. -/
inductive Item
  /-- 6.1 indexed header field -/
  | indexed (f : Field)
  /-- 6.2.1 literal with incremental indexing -/
  | incremental (f : Field)
  /-- 6.2.2 literal without indexing -/
  | withoutIndexing (f : Field)
  /-- 6.2.3 literal never indexed -/
  | neverIndexed (f : Field)
  /-- 6.3 dynamic table size update -/
  | sizeUpdate (n : Nat)
  deriving DecidableEq

/-- The header field an item adds to the header list. -/
def Item.field? : Item → Option Field
  | .indexed f => some f
  | .incremental f => some f
  | .withoutIndexing f => some f
  | .neverIndexed f => some f
  | .sizeUpdate _ => none

/-- The effect of an item on the dynamic table (RFC 7541 3.2, 4). -/
def Item.apply (t : Table) : Item → Table
  | .incremental f => t.insert f
  | .sizeUpdate n => t.setMax n
  | _ => t

/-- RFC 7541 6.2: `bs` starts with a literal whose index has an `n`-bit prefix. `get` gives the
field of an index. -/
inductive LiteralAt (int : IntReader) (get : Nat → Option Field) (n : Nat) :
    (bs : List UInt8) → (f : Field) → (rest : List UInt8) → Prop
  | indexedName (bs rest1 rest : List UInt8) (i : Nat) (f : Field) (value : List UInt8)
      (hi : int n bs = some (i, rest1)) (hf : get i = some f)
      (hv : StringAt int rest1 value rest) : LiteralAt int get n bs (f.1, value) rest
  | newName (bs rest1 rest2 rest : List UInt8) (name value : List UInt8)
      (hi : int n bs = some (0, rest1)) (hn : StringAt int rest1 name rest2)
      (hv : StringAt int rest2 value rest) : LiteralAt int get n bs (name, value) rest

/-- RFC 7541 section 6: `bs` starts with a representation of `item`; `rest` follows it. The patterns
in the comments are those of the first octet. `get` gives the field of an indexed representation,
`getName` the one whose name a literal takes; for RFC 7541 they are the same. -/
inductive ItemAt (int : IntReader) (get getName : Nat → Option Field) :
    (bs : List UInt8) → Item → (rest : List UInt8) → Prop
  /-- 1xxxxxxx -/
  | indexed (b : UInt8) (bs rest : List UInt8) (i : Nat) (f : Field) (hb : 128 ≤ b.toNat)
      (hi : int 7 (b :: bs) = some (i, rest)) (hf : get i = some f) :
      ItemAt int get getName (b :: bs) (.indexed f) rest
  /-- 01xxxxxx -/
  | incremental (b : UInt8) (bs rest : List UInt8) (f : Field)
      (hb : 64 ≤ b.toNat ∧ b.toNat < 128) (hl : LiteralAt int getName 6 (b :: bs) f rest) :
      ItemAt int get getName (b :: bs) (.incremental f) rest
  /-- 001xxxxx -/
  | sizeUpdate (b : UInt8) (bs rest : List UInt8) (n : Nat)
      (hb : 32 ≤ b.toNat ∧ b.toNat < 64) (hi : int 5 (b :: bs) = some (n, rest)) :
      ItemAt int get getName (b :: bs) (.sizeUpdate n) rest
  /-- 0001xxxx -/
  | neverIndexed (b : UInt8) (bs rest : List UInt8) (f : Field)
      (hb : 16 ≤ b.toNat ∧ b.toNat < 32) (hl : LiteralAt int getName 4 (b :: bs) f rest) :
      ItemAt int get getName (b :: bs) (.neverIndexed f) rest
  /-- 0000xxxx -/
  | withoutIndexing (b : UInt8) (bs rest : List UInt8) (f : Field)
      (hb : b.toNat < 16) (hl : LiteralAt int getName 4 (b :: bs) f rest) :
      ItemAt int get getName (b :: bs) (.withoutIndexing f) rest

/-- RFC 7541 section 3: a conforming decoder holding table `t` decodes the header block `bs` into
`items` and then holds `t'`. The rules on where a size update may occur and how large it may be are
left to the caller. -/
inductive BlockDecodes : (t : Table) → (bs : List UInt8) → List Item → (t' : Table) → Prop
  | nil (t : Table) : BlockDecodes t [] [] t
  | cons (t t' : Table) (bs rest : List UInt8) (item : Item) (items : List Item)
      (hi : ItemAt intDecode t.get? t.get? bs item rest)
      (hr : BlockDecodes (item.apply t) rest items t') :
      BlockDecodes t bs (item :: items) t'

/-- The header list of a decoded block. -/
def fields (items : List Item) : List Field := items.filterMap Item.field?

end Rfc
