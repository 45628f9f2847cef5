/-
Model of mh2c/hpack/header_type.{h,cpp}.
-/
import Verif.Model.StaticTable

namespace Mh2c

/-- mh2c/hpack/header_type.h:20-26 `header_prefix_pattern`. -/
inductive HeaderPrefix
  | withoutIndexing
  | neverIndexed
  | sizeUpdate
  | incrementalIndexing
  | indexed
  deriving DecidableEq, Repr

/-- mh2c/hpack/header_type.h:20-26: underlying values. -/
def HeaderPrefix.value : HeaderPrefix → UInt8
  | .withoutIndexing => 0x00
  | .neverIndexed => 0x10
  | .sizeUpdate => 0x20
  | .incrementalIndexing => 0x40
  | .indexed => 0x80

/-- mh2c/hpack/header_type.h:28-31 `header_encode_mode`. -/
inductive EncodeMode
  | none
  | huffman
  deriving DecidableEq, Repr

/-- mh2c/hpack/header_type.h:28-31: underlying values. -/
def EncodeMode.value : EncodeMode → UInt8
  | .none => 0x00
  | .huffman => 0x80

/-- `std::variant<header_t, size_t>` of mh2c/hpack/header_type.h:61. -/
inductive EntryValue
  | header (h : Header)
  | maxSize (n : Nat)
  deriving DecidableEq, Repr

/-- mh2c/hpack/header_type.h:45-62 `header_block_entry`. Nothing ties the variant to the prefix: the
constructors (mh2c/hpack/header_type.cpp:31-37) accept any combination. Equality
(mh2c/hpack/header_type.cpp:66-69) is component-wise. -/
structure HeaderEntry where
  pfx : HeaderPrefix
  entry : EntryValue
  deriving DecidableEq, Repr

/-- mh2c/hpack/header_type.h:63 `header_block_t`. -/
abbrev HeaderBlock := List HeaderEntry

namespace HeaderEntry

/-- mh2c/hpack/header_type.cpp:31-33, constructor from prefix and header. -/
def ofHeader (p : HeaderPrefix) (h : Header) : HeaderEntry := ⟨p, .header h⟩

/-- mh2c/hpack/header_type.cpp:35-37, constructor from prefix and size. -/
def ofSize (p : HeaderPrefix) (n : Nat) : HeaderEntry := ⟨p, .maxSize n⟩

/-- mh2c/hpack/header_type.cpp:28-29, constructor from a header only. -/
def ofHeaderOnly (h : Header) : HeaderEntry := ofHeader .neverIndexed h

/-- mh2c/hpack/header_type.cpp:43-49 `get_header`. -/
def getHeader (e : HeaderEntry) : Res Header :=
  match e.entry with
  | .header h => .ok h
  | .maxSize _ => .throw .runtimeError

/-- mh2c/hpack/header_type.cpp:50-56 `get_max_size`. -/
def getMaxSize (e : HeaderEntry) : Res Nat :=
  match e.entry with
  | .maxSize n => .ok n
  | .header _ => .throw .runtimeError

/-- mh2c/hpack/header_type.cpp:62-64 `set_header`. -/
def setHeader (e : HeaderEntry) (h : Header) : HeaderEntry := { e with entry := .header h }

end HeaderEntry

/-- mh2c/hpack/header_type.cpp:15-24 `correct_prefix`. -/
def correctPrefix (e : HeaderEntry) : Res HeaderEntry := do
  let header ← e.getHeader
  match reverseStaticTableEntries.lookup header with
  | some _ =>
      if header.2.length > 0 then return .ofHeader .indexed header else return e
  | none => return e

/-- mh2c/hpack/header_type.cpp:80-91 `make_header_block` (the overload of lines 75-78 calls it with
a one-element list). -/
def makeHeaderBlock (p : HeaderPrefix) : List Header → Res HeaderBlock
  | [] => .ok []
  | h :: hs => do
      let e ← correctPrefix (.ofHeader p h)
      let rest ← makeHeaderBlock p hs
      return e :: rest

/-- mh2c/hpack/header_type.cpp:66-69. The variants compare equal if they hold the same alternative
with equal values. -/
def HeaderEntry.same (a b : HeaderEntry) : Bool := a.pfx == b.pfx && a.entry == b.entry

/-- `std::vector<header_block_entry>::operator==` (for example
mh2c/frame/continuation_frame.cpp:128): same length and equal elements. -/
def sameBlock : HeaderBlock → HeaderBlock → Bool
  | [], [] => true
  | a :: as, b :: bs => a.same b && sameBlock as bs
  | _, _ => false

end Mh2c
