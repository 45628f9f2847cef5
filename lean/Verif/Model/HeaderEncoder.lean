/-
Model of mh2c/hpack/header_encoder.{h,cpp}.
-/
import Verif.Model.IntRep
import Verif.Model.Huffman
import Verif.Model.DynamicTable

namespace Mh2c

/-- `v[0] |= bits`, mh2c/hpack/header_encoder.cpp:28, 32, 37, 52, 71 and 97. -/
def orFirst (bits : UInt8) : Bytes → Res Bytes
  | [] => .ub .outOfBounds
  | b :: bs => .ok ((b ||| bits) :: bs)

/-- mh2c/hpack/header_encoder.cpp:21-47 `encode_index`. -/
def encodeIndex (index : Nat) (p : HeaderPrefix) : Res Bytes :=
  match p with
  | .indexed => orFirst p.value (encodeIntegerValue 7 index)
  | .incrementalIndexing => orFirst p.value (encodeIntegerValue 6 index)
  | .withoutIndexing => orFirst p.value (encodeIntegerValue 4 index)
  | .neverIndexed => orFirst p.value (encodeIntegerValue 4 index)
  | .sizeUpdate => .throw .invalidArgument

/-- mh2c/hpack/header_encoder.cpp:49-54 `encode_max_size`. -/
def encodeMaxSize (maxSize : Nat) (p : HeaderPrefix) : Res Bytes :=
  orFirst p.value (encodeIntegerValue 5 maxSize)

/-- mh2c/hpack/header_encoder.cpp:56-81 `encode_header_value`. -/
def encodeHeaderValue (value : Bytes) (mode : EncodeMode) : Res Bytes := do
  let bytes ← if mode = .huffman then Huffman.encode value else .ok value
  let len ← orFirst mode.value (encodeIntegerValue 7 bytes.length)
  return len ++ bytes

/-- mh2c/hpack/header_encoder.cpp:83-107 `encode_header_name`. -/
def encodeHeaderName (name : Bytes) (mode : EncodeMode) : Res Bytes := do
  let bytes ← if mode = .huffman then Huffman.encode name else .ok name
  let len ← orFirst mode.value (encodeIntegerValue 7 bytes.length)
  return len ++ bytes

/-- `std::find(begin, end, header) - begin` (mh2c/hpack/header_encoder.cpp:130-133). -/
def findIndex (h : Header) : List Header → Option Nat
  | [] => none
  | e :: es => if e = h then some 0 else (findIndex h es).map (· + 1)

/-- mh2c/hpack/header_encoder.cpp:138-164: the literal representations. -/
def encodeLiteral (p : HeaderPrefix) (header : Header) (mode : EncodeMode) : Res Bytes :=
  match reverseStaticTableEntries.lookup (header.1, []) with
  | some idx => do
      let encodedIndex ← encodeIndex idx p
      let value ← encodeHeaderValue header.2 mode
      return encodedIndex ++ value
  | none => do
      let encodedIndex ← encodeIndex 0 p
      let name ← encodeHeaderName header.1 mode
      let value ← encodeHeaderValue header.2 mode
      return encodedIndex ++ name ++ value

/-- mh2c/hpack/header_encoder.cpp:129-164: dynamic table match, otherwise a literal. -/
def encodeDynamicOrLiteral (p : HeaderPrefix) (header : Header) (mode : EncodeMode)
    (table : DynamicTable) : Res Bytes :=
  match findIndex header table.entries with
  | some i => encodeIndex (staticTableEntries.length + 1 + i) .indexed
  | none => encodeLiteral p header mode

/-- mh2c/hpack/header_encoder.cpp:109-165 `encode_header`. -/
def encodeHeader (e : HeaderEntry) (mode : EncodeMode) (table : DynamicTable) : Res Bytes :=
  if e.pfx = .sizeUpdate then do
    let n ← e.getMaxSize
    encodeMaxSize n e.pfx
  else do
    let header ← e.getHeader
    match reverseStaticTableEntries.lookup header with
    | some idx =>
        if header.2.length > 0 then encodeIndex idx .indexed
        else encodeDynamicOrLiteral e.pfx header mode table
    | none => encodeDynamicOrLiteral e.pfx header mode table

/-- The `std::for_each` over the header block shared by mh2c/frame/headers_frame.cpp:59-66,
mh2c/frame/continuation_frame.cpp:32-39 and mh2c/frame/push_promise_frame.cpp:51-57. -/
def encodeHeaderBlock (block : HeaderBlock) (mode : EncodeMode) (table : DynamicTable) :
    Res Bytes :=
  match block with
  | [] => .ok []
  | e :: es => do
      let b ← encodeHeader e mode table
      let rest ← encodeHeaderBlock es mode table
      return b ++ rest

end Mh2c
