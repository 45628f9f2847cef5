/-
Model of mh2c/hpack/header_decoder.{h,cpp}.
-/
import Verif.Model.Bits
import Verif.Model.IntRep
import Verif.Model.Huffman
import Verif.Model.DynamicTable

namespace Mh2c

/-- mh2c/hpack/header_decoder.cpp:43-47: the first prefix of the list whose flag is set. -/
def firstPrefix (target : UInt8) : List HeaderPrefix → Res HeaderPrefix
  | [] => .throw .invalidArgument
  | p :: ps => if isFlagSet target p.value then .ok p else firstPrefix target ps

/-- mh2c/hpack/header_decoder.cpp:32-51 `check_prefix`. `target_prefix` keeps the high four bits;
it fits eight bits, so the comparison is made on octets. -/
def checkPrefix (target : UInt8) : Res HeaderPrefix :=
  let targetPrefix := u8 (highBits 8 4 target.toNat * 2 ^ 4)
  firstPrefix targetPrefix
    [.indexed, .incrementalIndexing, .sizeUpdate, .neverIndexed, .withoutIndexing]

/-- `decode_integer_value<N>` followed by `encode_integer_value<N>(..).size()`, the way the decoder
computes the number of octets an integer occupies (mh2c/hpack/header_decoder.cpp:61-63 and others). -/
def decodeIntWithLength (n : Nat) (v : Bytes) : Res (Nat × Nat) := do
  let value ← decodeIntegerValue n v
  return (value, (encodeIntegerValue n value).length)

/-- mh2c/hpack/header_decoder.cpp:53-92 `decode_index`. -/
def decodeIndex (v : Bytes) (p : HeaderPrefix) : Res (Nat × Nat) :=
  match p with
  | .indexed => decodeIntWithLength 7 v
  | .incrementalIndexing => decodeIntWithLength 6 v
  | .withoutIndexing => decodeIntWithLength 4 v
  | .neverIndexed => decodeIntWithLength 4 v
  | .sizeUpdate => .throw .invalidArgument

/-- mh2c/hpack/header_decoder.cpp:94-101 `decode_max_size`. -/
def decodeMaxSize (v : Bytes) : Res (Nat × Nat) := decodeIntWithLength 5 v

/-- mh2c/hpack/header_decoder.cpp:103-128 `decode_header_name` and 130-155 `decode_header_value`
(the two functions are textually the same up to variable names). -/
def decodeHeaderString [Platform] (v : Bytes) : Res (Bytes × Nat) := do
  let (length, intLength) ← decodeIntWithLength 7 v
  let first ← front v
  let isHuffman := highBits 8 1 first.toNat
  let str ←
    if isHuffman ≠ 0 then do
      let data ← copyRange v intLength length
      let decoded ← Huffman.decode data
      -- std::string{&huffman_decoded_data[0], huffman_decoded_data.size()}
      addressRange decoded 0 decoded.length
    else
      -- std::string{&encoded[decoded_byte_length], length}
      addressRange v intLength length
  return (str, intLength + length)

/-- mh2c/hpack/header_decoder.cpp:163 `static_table_entries.at(index)`: `std::map::at`. -/
def staticTableAt (index : Nat) : Res Header :=
  match staticTableEntries.lookup index with
  | some h => .ok h
  | none => .throw .outOfRange

/-- mh2c/hpack/header_decoder.cpp:157-165 `make_indexed_header`. -/
def makeIndexedHeader (index : Nat) (table : DynamicTable) : Res Header :=
  if index > staticTableEntries.length then table.atPos (index - staticTableEntries.length - 1)
  else staticTableAt index

/-- mh2c/hpack/header_decoder.cpp:189-215: name (if not indexed) and value of a literal
representation whose index octets have been counted in `indexLength`. -/
def decodeLiteral [Platform] (v : Bytes) (p : HeaderPrefix) (indexedHeader : Header)
    (indexLength : Nat) : Res (HeaderEntry × Nat) := do
  let data ← eraseFirst indexLength v
  if indexedHeader.1.length = 0 then do
    let (name, nameLength) ← decodeHeaderString data
    let data' ← eraseFirst nameLength data
    let (value, valueLength) ← decodeHeaderString data'
    let _ ← eraseFirst valueLength data'
    return (.ofHeader p (name, value), indexLength + nameLength + valueLength)
  else do
    let (value, valueLength) ← decodeHeaderString data
    let _ ← eraseFirst valueLength data
    return (.ofHeader p (indexedHeader.1, value), indexLength + valueLength)

/-- mh2c/hpack/header_decoder.cpp:167-216 `decode_header`: entry and number of octets. -/
def decodeHeader [Platform] (v : Bytes) (table : DynamicTable) : Res (HeaderEntry × Nat) := do
  let first ← front v
  let p ← checkPrefix first
  if p = .sizeUpdate then do
    let (maxSize, length) ← decodeMaxSize v
    return (.ofSize p maxSize, length)
  else do
    let (index, indexLength) ← decodeIndex v p
    let indexedHeader ←
      if index > 0 then makeIndexedHeader index table else .ok ([], [])
    if p = .indexed then return (.ofHeader p indexedHeader, indexLength)
    else decodeLiteral v p indexedHeader indexLength

/-- The `while` loop over the header block shared by mh2c/frame/headers_frame.cpp:132-136,
mh2c/frame/continuation_frame.cpp:57-61 and mh2c/frame/push_promise_frame.cpp:101-105. -/
def decodeHeaderBlock [Platform] (data : Bytes) (table : DynamicTable) : Res HeaderBlock :=
  if data.length > 0 then
    match decodeHeader data table with
    | .throw e => .throw e
    | .ub k => .ub k
    | .diverge => .diverge
    | .ok (entry, n) =>
        if n > data.length then .ub .badIterator
        else if 0 < n then do
          let rest ← decodeHeaderBlock (data.drop n) table
          return entry :: rest
        else .diverge
  else .ok []
termination_by data.length
decreasing_by simp; omega

end Mh2c
