/-
Model of mh2c/hpack/huffman_encoder.cpp and mh2c/hpack/huffman_decoder.cpp.
-/
import Verif.Model.HuffmanCode

namespace Mh2c.Huffman

/-- mh2c/hpack/huffman_code.h:20 `encode_table_value`, also of `carry_over`
(mh2c/hpack/huffman_encoder.cpp:43): bits (right aligned) and their number. -/
abbrev Rec := Nat × Nat

/-- mh2c/hpack/huffman_encoder.cpp:74 `std::map::size()`: number of distinct keys of the initialiser
list. -/
def mapSize {α β : Type} [BEq α] (m : List (α × β)) : Nat := (m.map Prod.fst).eraseDups.length

/-- mh2c/hpack/huffman_encoder.cpp:48 `encode_table.at(key)`. -/
def encodeTableAt (key : Nat) : Res Rec :=
  match encodeTable.lookup key with
  | some r => .ok r
  | none => .throw .outOfRange

/-- mh2c/hpack/huffman_encoder.cpp:20-33 `fill_record(&dst, &src)`: returns the new `dst`, `src`.
`lack` has type `uint8_t` (wraps); `first` has type `uint32_t`. -/
def fillRecord (dst src : Rec) : Res (Rec × Rec) := do
  let lack := (256 + 8 - dst.2) % 256
  let fillBit := min lack src.2
  let remainBit := src.2 - fillBit
  let fillData ← shrU32 src.1 remainBit
  let shifted ← shlU32 dst.1 fillBit
  let dst' := (shifted ||| fillData, (dst.2 + fillBit) % 256)
  let back ← shlU32 fillData remainBit
  let src' := (src.1 ^^^ back, remainBit)
  return (dst', src')

/-- mh2c/hpack/huffman_encoder.cpp:56-67: the `for` loop of `encode_func`, then the assignment of
the remainder to `carry_over_record`. `remain_bit_size` is the sum of the two bit counts at every
test (the carry is reset to zero bits in each iteration). -/
def encodeLoop (carry src : Rec) (out : Bytes) : Res (Rec × Bytes) :=
  if carry.2 + src.2 ≥ 8 then do
    let (carry', src') ← fillRecord carry src
    if 0 + src'.2 < carry.2 + src.2 then
      encodeLoop (0, 0) src' (out ++ [u8 carry'.1])
    else .diverge
  else .ok (src, out)
termination_by carry.2 + src.2

/-- mh2c/hpack/huffman_encoder.cpp:46-69 `encode_func` for one octet: new `carry_over_record` and
`encoded_data`. -/
def encodeStep (carry : Rec) (out : Bytes) (data : UInt8) : Res (Rec × Bytes) := do
  let record ← encodeTableAt data.toNat
  if carry.2 + record.2 < 8 then do
    let (carry', _) ← fillRecord carry record
    return (carry', out)
  else encodeLoop carry record out

/-- mh2c/hpack/huffman_encoder.cpp:71 `std::for_each`. -/
def encodeAll (carry : Rec) (out : Bytes) : Bytes → Res (Rec × Bytes)
  | [] => .ok (carry, out)
  | b :: bs => do
      let (carry', out') ← encodeStep carry out b
      encodeAll carry' out' bs

/-- mh2c/hpack/huffman_encoder.cpp:42-84 `huffman::encode`. -/
def encode (raw : Bytes) : Res Bytes := do
  let (carry, out) ← encodeAll (0, 0) [] raw
  if carry.2 > 0 then do
    let eos ← encodeTableAt (mapSize encodeTable - 1)
    let padBitSize := 8 - carry.2
    let padBits ← shrU32 eos.1 (eos.2 - padBitSize)
    let shifted ← shlU32 carry.1 padBitSize
    return out ++ [u8 (shifted ||| padBits)]
  else return out

/-- mh2c/hpack/huffman_decoder.cpp:28-31: the loop of `construct_integer`, `left` octets to go. -/
def constructIntegerLoop : (left : Nat) → Bytes → (value : Nat) → Res Nat
  | 0, _, value => .ok value
  | _ + 1, [], _ => .throw .outOfRange
  | left + 1, b :: bs, value => do
      let t ← shlInt b.toNat (left * 8)
      constructIntegerLoop left bs (value ||| t)

/-- mh2c/hpack/huffman_decoder.cpp:17-33 `construct_integer`. -/
def constructInteger (data : Bytes) (requiredByte : Nat) : Res Nat :=
  if data.length < requiredByte then .throw .invalidArgument
  else constructIntegerLoop requiredByte data 0

/-- Outcome of the search loop mh2c/hpack/huffman_decoder.cpp:45-92. -/
inductive Found
  /-- lines 47-51: no octet left and too few carried bits -/
  | leftover
  /-- lines 82-91: a code of `bitLength` bits was found -/
  | symbol (sym bitLength eraseLength : Nat) (carry : Rec)
  deriving DecidableEq

/-- mh2c/hpack/huffman_decoder.cpp:53-78: key, new carry and number of octets to erase for codes of
`bitLength` bits. -/
def candidate (temp : Bytes) (carry : Rec) (bitLength : Nat) : Res (Nat × Rec × Nat) :=
  if carry.2 < bitLength then do
    let requiredBit := bitLength - carry.2
    let requiredByte := if requiredBit % 8 = 0 then requiredBit / 8 else requiredBit / 8 + 1
    let target ← constructInteger temp requiredByte
    let shiftBit := requiredByte * 8 + carry.2 - bitLength
    let shiftedTarget ← shrU32 target shiftBit
    let back ← shlU32 shiftedTarget shiftBit
    let high ← shlU32 carry.1 (bitLength - carry.2)
    return (high ||| shiftedTarget, (target ^^^ back, shiftBit), requiredByte)
  else do
    let target := carry.1
    let shiftBit := carry.2 - bitLength
    let shiftedTarget ← shrU32 target shiftBit
    let back ← shlU32 shiftedTarget shiftBit
    return (shiftedTarget, (target ^^^ back, shiftBit), 0)

/-- mh2c/hpack/huffman_decoder.cpp:45-92: the `for` loop over `decode_table`. -/
def search (temp : Bytes) (carry : Rec) : List (Nat × List (Nat × Nat)) → Res (Option Found)
  | [] => .ok none
  | (bitLength, decodeMap) :: rest =>
      if temp.length = 0 ∧ carry.2 < bitLength then .ok (some .leftover)
      else do
        let (key, carry', eraseLength) ← candidate temp carry bitLength
        match decodeMap.lookup key with
        | some sym => return some (.symbol sym bitLength eraseLength carry')
        | none => search temp carry rest

/-- mh2c/hpack/huffman_decoder.cpp:42-104: the `while` loop. `decoded_data.push_back` converts the
16-bit symbol to an octet. The failure branch formats `temp_encoded_data[0..3]` first. -/
def decodeLoop (total decoded : Nat) (temp : Bytes) (carry : Rec) (out : Bytes) : Res Bytes :=
  if decoded < total then
    match search temp carry decodeTable with
    | .throw e => .throw e
    | .ub k => .ub k
    | .diverge => .diverge
    | .ok none => if temp.length < 4 then .ub .outOfBounds else .throw .runtimeError
    | .ok (some .leftover) =>
        if 0 < carry.2 then decodeLoop total (decoded + carry.2) temp carry out else .diverge
    | .ok (some (.symbol sym bitLength eraseLength carry')) =>
        match eraseFirst eraseLength temp with
        | .throw e => .throw e
        | .ub k => .ub k
        | .diverge => .diverge
        | .ok temp' =>
            if 0 < bitLength then
              decodeLoop total (decoded + bitLength) temp' carry' (out ++ [u8 sym])
            else .diverge
  else .ok out
termination_by total - decoded

/-- mh2c/hpack/huffman_decoder.cpp:35-107 `huffman::decode`. -/
def decode (encoded : Bytes) : Res Bytes :=
  decodeLoop (encoded.length * 8) 0 encoded (0, 0) []

end Mh2c.Huffman
