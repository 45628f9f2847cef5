/-
Model of mh2c/frame/frame_header.{h,cpp,ipp} and mh2c/frame/frame_type_registry.h.
-/
import Verif.Model.Bits

namespace Mh2c

/-- mh2c/frame/frame_header.h:39-45 `frame_header`, with the C++ field widths. Equality
(mh2c/frame/frame_header.cpp:74-78) is component-wise. -/
structure FrameHeader where
  length : UInt32
  type : UInt8
  flags : UInt8
  reserved : UInt8
  streamId : UInt32
  deriving DecidableEq, Repr

/-- mh2c/frame/frame_type_registry.h:14-25 `frame_type_registry`. -/
inductive FrameType
  | data | headers | priority | rstStream | settings | pushPromise | ping | goaway
  | windowUpdate | continuation
  deriving DecidableEq, Repr

/-- mh2c/frame/frame_type_registry.h:14-25: underlying values. -/
def FrameType.value : FrameType → UInt8
  | .data => 0
  | .headers => 1
  | .priority => 2
  | .rstStream => 3
  | .settings => 4
  | .pushPromise => 5
  | .ping => 6
  | .goaway => 7
  | .windowUpdate => 8
  | .continuation => 9

/-- mh2c/frame/frame_type_registry.ipp:9-12 `cast_to_frame_type_registry`, restricted to the
enumerators: `none` stands for a value without enumerator. -/
def frameTypeOf (t : UInt8) : Option FrameType :=
  [FrameType.data, .headers, .priority, .rstStream, .settings, .pushPromise, .ping, .goaway,
    .windowUpdate, .continuation].find? fun f => f.value == t

/-- mh2c/frame/frame_header.cpp:18-47 `serialize(const frame_header&)`. The one-bit reserved field
is masked, the stream id is not. -/
def FrameHeader.serialize [Platform] (fh : FrameHeader) : Bytes :=
  (netBytes 4 fh.length.toNat).drop 1 ++ [fh.type] ++ [fh.flags] ++
    netBytes 4 ((lowBits 1 fh.reserved.toNat <<< 31) ||| fh.streamId.toNat)

/-- mh2c/frame/frame_header.cpp:49-62 `build_frame_header`. The length is the high 24 bits of the
first four octets. -/
def buildFrameHeader (raw : Bytes) : Res FrameHeader := do
  let lengthAndType ← bytes2integral 4 raw
  let type ← readAt raw 3
  let flags ← readAt raw 4
  let rAndId ← bytes2integral 4 (raw.drop 5)
  return {
    length := UInt32.ofNat (highBits 32 24 lengthAndType)
    type := type
    flags := flags
    reserved := UInt8.ofNat (highBits 32 1 rAndId)
    streamId := UInt32.ofNat (lowBits 31 rAndId) }

/-- mh2c/frame/frame_header.ipp:9-12 `cast_to_fh_length`: conversion to `uint32_t`. -/
def castToFhLength (n : Nat) : UInt32 := UInt32.ofNat n

/-- mh2c/frame/frame_header.ipp:14-17 `make_frame_header_flags`: left fold of `|`. The fold has no
value for zero arguments (it does not compile), hence the explicit first argument. -/
def makeFrameHeaderFlags (first : UInt8) (rest : List UInt8) : UInt8 :=
  rest.foldl (fun acc f => acc ||| f) first

/-- mh2c/frame/frame_header.cpp:74-78. -/
def FrameHeader.same (a b : FrameHeader) : Bool :=
  a.length == b.length && a.type == b.type && a.flags == b.flags && a.reserved == b.reserved &&
    a.streamId == b.streamId

end Mh2c
