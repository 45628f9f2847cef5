/-
Model of the frame classes mh2c/frame/*_frame.{h,cpp}: constructors and `serialize`.
Printing is in Model/Dump.lean.
-/
import Verif.Model.FrameHeader
import Verif.Model.HeaderEncoder
import Verif.Model.HeaderDecoder

namespace Mh2c

/-! ## DATA -/

/-- END_STREAM of `df_flag` and `hf_flag`, mh2c/frame/data_frame.h:18 and
mh2c/frame/headers_frame.h:20. -/
def flagEndStream : UInt8 := 0x01
/-- ACK of `sf_flag` and `pf_flag`, mh2c/frame/settings_frame.h:20 and mh2c/frame/ping_frame.h:17. -/
def flagAck : UInt8 := 0x01
/-- END_HEADERS of `hf_flag`, `ppf_flag` and `cf_flag`, mh2c/frame/headers_frame.h:21,
mh2c/frame/push_promise_frame.h:20 and mh2c/frame/continuation_frame.h:19. -/
def flagEndHeaders : UInt8 := 0x04
/-- PADDED of `df_flag`, `hf_flag` and `ppf_flag`, mh2c/frame/data_frame.h:19,
mh2c/frame/headers_frame.h:22 and mh2c/frame/push_promise_frame.h:21. -/
def flagPadded : UInt8 := 0x08
/-- PRIORITY of `hf_flag`, mh2c/frame/headers_frame.h:23. -/
def flagPriority : UInt8 := 0x20

/-- mh2c/frame/data_frame.h:22-40 `data_frame`. The payload is uninterpreted: the PADDED flag only
matters for printing. -/
structure DataFrame where
  header : FrameHeader
  payload : Bytes
  deriving DecidableEq, Repr

/-- mh2c/frame/data_frame.cpp:107-109. -/
def DataFrame.same (a b : DataFrame) : Bool := a.header.same b.header && a.payload == b.payload

/-- mh2c/frame/data_frame.cpp:24-43, both constructors (octets or string). -/
def DataFrame.new (flags : UInt8) (streamId : UInt32) (payload : Bytes) : DataFrame :=
  { header := ⟨castToFhLength payload.length, FrameType.data.value, flags, 0, streamId⟩
    payload := payload }

/-- mh2c/frame/data_frame.cpp:49-55 `serialize`. -/
def DataFrame.serialize [Platform] (f : DataFrame) : Res Bytes :=
  .ok (f.header.serialize ++ f.payload)

/-! ## HEADERS -/

/-- mh2c/frame/headers_frame.h:29-33 `hf_priority_option`. -/
structure PriorityOption where
  exclusive : UInt8
  streamDependency : UInt32
  weight : UInt8
  deriving DecidableEq, Repr

/-- mh2c/frame/headers_frame.cpp:237-241 and mh2c/frame/priority_frame.cpp:66-70. -/
def PriorityOption.same (a b : PriorityOption) : Bool :=
  a.exclusive == b.exclusive && a.streamDependency == b.streamDependency && a.weight == b.weight

/-- mh2c/frame/headers_frame.cpp:109 `hf_priority_option{}`. -/
def PriorityOption.zero : PriorityOption := ⟨0, 0, 0⟩

/-- mh2c/frame/headers_frame.h:35-60 `headers_frame`. -/
structure HeadersFrame where
  encodedPayload : Bytes
  header : FrameHeader
  padding : Bytes
  priority : PriorityOption
  headerBlock : HeaderBlock
  deriving DecidableEq, Repr

/-- mh2c/frame/headers_frame.cpp:247-252: the encoded payload is not compared. -/
def HeadersFrame.same (a b : HeadersFrame) : Bool :=
  a.header.same b.header && a.priority.same b.priority && sameBlock a.headerBlock b.headerBlock &&
    a.padding == b.padding

/-- mh2c/frame/headers_frame.cpp:48-56: the priority fields. `m_exclusive << 31` is an `int` shift
of the unmasked octet. -/
def encodePriority (p : PriorityOption) : Res Bytes := do
  let e ← shlInt p.exclusive.toNat 31
  return integral2bytes 4 (e ||| lowBits 31 p.streamDependency.toNat) ++ [p.weight]

/-- mh2c/frame/headers_frame.cpp:34-75 `construct_encoded_payload`. The pad length octet is
`padding.size()` converted to `uint8_t`. -/
def HeadersFrame.constructEncodedPayload (flags : UInt8) (block : HeaderBlock) (mode : EncodeMode)
    (table : DynamicTable) (padding : Bytes) (priority : PriorityOption) : Res Bytes := do
  let padLength := if isFlagSet flags flagPadded then [u8 padding.length] else []
  let prio ← if isFlagSet flags flagPriority then encodePriority priority else .ok []
  let encodedBlock ← encodeHeaderBlock block mode table
  let pad := if isFlagSet flags flagPadded then padding else []
  return padLength ++ prio ++ encodedBlock ++ pad

/-- mh2c/frame/headers_frame.cpp:146-158, the sending constructor. -/
def HeadersFrame.new (flags : UInt8) (streamId : UInt32) (block : HeaderBlock) (mode : EncodeMode)
    (table : DynamicTable) (padding : Bytes := []) (priority : PriorityOption := .zero) :
    Res HeadersFrame := do
  let payload ← constructEncodedPayload flags block mode table padding priority
  return {
    encodedPayload := payload
    header := ⟨castToFhLength payload.length, FrameType.headers.value, flags, 0, streamId⟩
    padding := padding
    priority := priority
    headerBlock := block }

/-- mh2c/frame/headers_frame.cpp:98-106 and mh2c/frame/push_promise_frame.cpp:83-91: split off the
padding. Returns the padding and the remaining data. `raw_data.end() - pad_length` before `begin()`
is undefined, and so is erasing the first octet of a vector that became empty. -/
def extractPadding (flags : UInt8) (raw : Bytes) : Res (Bytes × Bytes) :=
  if isFlagSet flags flagPadded then do
    let padLength ← front raw
    if padLength.toNat > raw.length then .ub .badIterator
    else do
      let padding := raw.drop (raw.length - padLength.toNat)
      let raw' ← eraseFirst 1 (raw.take (raw.length - padLength.toNat))
      return (padding, raw')
  else .ok ([], raw)

/-- mh2c/frame/headers_frame.cpp:110-129: split off the priority fields. -/
def extractPriority (flags : UInt8) (raw : Bytes) : Res (PriorityOption × Bytes) :=
  if isFlagSet flags flagPriority then do
    let dep ← copyRange raw 0 4
    let first ← readAt dep 0
    let value ← bytes2integral 4 dep
    let raw' ← eraseFirst 4 raw
    let weight ← front raw'
    let raw'' ← eraseFirst 1 raw'
    return (⟨UInt8.ofNat (highBits 8 1 first.toNat), UInt32.ofNat (lowBits 31 value), weight⟩, raw'')
  else .ok (.zero, raw)

/-- mh2c/frame/headers_frame.cpp:160-168 (receiving constructor) with `decode_payload`, lines
90-139. -/
def HeadersFrame.ofRaw [Platform] (fh : FrameHeader) (raw : Bytes) (table : DynamicTable) :
    Res HeadersFrame := do
  let (padding, rest) ← extractPadding fh.flags raw
  let (priority, rest') ← extractPriority fh.flags rest
  let block ← decodeHeaderBlock rest' table
  return {
    encodedPayload := raw, header := fh, padding := padding, priority := priority
    headerBlock := block }

/-- mh2c/frame/headers_frame.cpp:174-179 `serialize`. -/
def HeadersFrame.serialize [Platform] (f : HeadersFrame) : Res Bytes :=
  .ok (f.header.serialize ++ f.encodedPayload)

/-! ## PRIORITY -/

/-- mh2c/frame/priority_frame.h:26-43 `priority_frame`; the payload struct (lines 17-21) has the
same fields as `hf_priority_option`. -/
structure PriorityFrame where
  header : FrameHeader
  payload : PriorityOption
  deriving DecidableEq, Repr

/-- mh2c/frame/priority_frame.cpp:128-130. -/
def PriorityFrame.same (a b : PriorityFrame) : Bool :=
  a.header.same b.header && a.payload.same b.payload

/-- mh2c/frame/priority_frame.cpp:48-62 `validate_payload`. -/
def validatePriority (p : PriorityOption) : Res Unit :=
  if p.exclusive.toNat > 1 then .throw .invalidArgument
  else if p.streamDependency.toNat > 0x7fffffff then .throw .invalidArgument
  else .ok ()

/-- mh2c/frame/priority_frame.cpp:76-80, the sending constructor. -/
def PriorityFrame.new (streamId : UInt32) (payload : PriorityOption) : Res PriorityFrame := do
  validatePriority payload
  return { header := ⟨5, FrameType.priority.value, 0, 0, streamId⟩, payload := payload }

/-- mh2c/frame/priority_frame.cpp:32-46 `construct_payload`. -/
def PriorityFrame.constructPayload (raw : Bytes) : Res PriorityOption :=
  if raw.length < 5 then .throw .invalidArgument
  else do
    let first ← readAt raw 0
    let value ← bytes2integral 4 raw
    let weight ← readAt raw 4
    return ⟨UInt8.ofNat (highBits 8 1 first.toNat), UInt32.ofNat (lowBits 31 value), weight⟩

/-- mh2c/frame/priority_frame.cpp:82-86, the receiving constructor. -/
def PriorityFrame.ofRaw (fh : FrameHeader) (raw : Bytes) : Res PriorityFrame := do
  let payload ← constructPayload raw
  validatePriority payload
  return { header := fh, payload := payload }

/-- mh2c/frame/priority_frame.cpp:92-110 `serialize`. -/
def PriorityFrame.serialize [Platform] (f : PriorityFrame) : Res Bytes :=
  .ok (f.header.serialize ++
    netBytes 4 ((lowBits 1 f.payload.exclusive.toNat <<< 31) ||| f.payload.streamDependency.toNat)
    ++ [f.payload.weight])

/-! ## RST_STREAM -/

/-- mh2c/frame/rst_stream_frame.h:17-35 `rst_stream_frame`. `error_codes` is an enum with underlying type
`uint32_t` and may hold any such value. -/
structure RstStreamFrame where
  header : FrameHeader
  errorCode : UInt32
  deriving DecidableEq, Repr

/-- mh2c/frame/rst_stream_frame.cpp:87-89. -/
def RstStreamFrame.same (a b : RstStreamFrame) : Bool :=
  a.header.same b.header && a.errorCode == b.errorCode

/-- mh2c/frame/rst_stream_frame.cpp:43-45 with lines 23-26. -/
def RstStreamFrame.new (streamId errorCode : UInt32) : RstStreamFrame :=
  { header := ⟨4, FrameType.rstStream.value, 0, 0, streamId⟩, errorCode := errorCode }

/-- mh2c/frame/rst_stream_frame.cpp:47-49 with `construct_error_code`, lines 28-39. -/
def RstStreamFrame.ofRaw (fh : FrameHeader) (raw : Bytes) : Res RstStreamFrame :=
  if raw.length < 4 then .throw .invalidArgument
  else do
    let code ← bytes2integral 4 raw
    return { header := fh, errorCode := UInt32.ofNat code }

/-- mh2c/frame/rst_stream_frame.cpp:55-64 `serialize`. -/
def RstStreamFrame.serialize [Platform] (f : RstStreamFrame) : Res Bytes :=
  .ok (f.header.serialize ++ netBytes 4 f.errorCode.toNat)

/-! ## SETTINGS -/

/-- `sf_payload_t = std::map<uint16_t, uint32_t>` (mh2c/frame/settings_frame.h:27): a list of pairs
in increasing key order. -/
abbrev SfPayload := List (UInt16 × UInt32)

/-- `std::map::insert` (mh2c/frame/frame_builder.cpp:107) and `emplace`
(mh2c/frame/settings_frame.cpp:124): keeps an existing value. -/
def SfPayload.insert (id : UInt16) (value : UInt32) : SfPayload → SfPayload
  | [] => [(id, value)]
  | (k, v) :: rest =>
      if id < k then (id, value) :: (k, v) :: rest
      else if id = k then (k, v) :: rest
      else (k, v) :: insert id value rest

/-- mh2c/frame/settings_frame.cpp:120-128 `make_sf_payload` (parameters are enumerators with
underlying type `uint16_t`). -/
def makeSfPayload (parameters : List (UInt16 × UInt32)) : SfPayload :=
  parameters.foldl (fun m p => SfPayload.insert p.1 p.2 m) []

/-- mh2c/frame/settings_frame.h:40-56 `settings_frame`. -/
structure SettingsFrame where
  header : FrameHeader
  payload : SfPayload
  deriving DecidableEq, Repr

/-- mh2c/frame/settings_frame.cpp:112-114. Maps compare equal if their sorted elements do. -/
def SettingsFrame.same (a b : SettingsFrame) : Bool :=
  a.header.same b.header && a.payload == b.payload

/-- mh2c/frame/settings_frame.cpp:53-57 with lines 39-46. -/
def SettingsFrame.new (flags : UInt8) (streamId : UInt32) (payload : SfPayload) : SettingsFrame :=
  { header := ⟨castToFhLength (6 * payload.length), FrameType.settings.value, flags, 0, streamId⟩
    payload := payload }

/-- mh2c/frame/settings_frame.cpp:66-79: one parameter on the wire. -/
def serializeSetting [Platform] (p : UInt16 × UInt32) : Bytes :=
  netBytes 2 p.1.toNat ++ netBytes 4 p.2.toNat

/-- mh2c/frame/settings_frame.cpp:63-82 `serialize`. -/
def SettingsFrame.serialize [Platform] (f : SettingsFrame) : Res Bytes :=
  .ok (f.header.serialize ++ f.payload.flatMap serializeSetting)

/-- mh2c/frame/frame_builder.cpp:101-108: the loop of `build_settings_frame`. -/
def parseSettings (raw : Bytes) (acc : SfPayload) : Res SfPayload :=
  match raw with
  | [] => .ok acc
  | b :: bs => do
      let id ← bytes2integral 2 (b :: bs)
      let raw' := (b :: bs).drop 2
      let value ← bytes2integral 4 raw'
      parseSettings (raw'.drop 4) (acc.insert (UInt16.ofNat id) (UInt32.ofNat value))
termination_by raw.length
decreasing_by simp; omega

/-! ## PUSH_PROMISE -/

/-- mh2c/frame/push_promise_frame.h:24-29 `push_promise_payload`. -/
structure PushPromisePayload where
  reserved : UInt8
  promisedStreamId : UInt32
  headerBlock : HeaderBlock
  padding : Bytes
  deriving DecidableEq, Repr

/-- mh2c/frame/push_promise_frame.cpp:112-118. -/
def PushPromisePayload.same (a b : PushPromisePayload) : Bool :=
  a.reserved == b.reserved && a.promisedStreamId == b.promisedStreamId &&
    sameBlock a.headerBlock b.headerBlock && a.padding == b.padding

/-- mh2c/frame/push_promise_frame.h:36-58 `push_promise_frame`. -/
structure PushPromiseFrame where
  encodedPayload : Bytes
  header : FrameHeader
  payload : PushPromisePayload
  deriving DecidableEq, Repr

/-- mh2c/frame/push_promise_frame.cpp:203-205: the encoded payload is not compared. -/
def PushPromiseFrame.same (a b : PushPromiseFrame) : Bool :=
  a.header.same b.header && a.payload.same b.payload

/-- mh2c/frame/push_promise_frame.cpp:28-66 `construct_encoded_payload`. -/
def PushPromiseFrame.constructEncodedPayload [Platform] (flags : UInt8)
    (payload : PushPromisePayload) (mode : EncodeMode) (table : DynamicTable) : Res Bytes := do
  let padLength := if isFlagSet flags flagPadded then [u8 payload.padding.length] else []
  let promised := netBytes 4
    ((lowBits 1 payload.reserved.toNat <<< 31) ||| lowBits 31 payload.promisedStreamId.toNat)
  let encodedBlock ← encodeHeaderBlock payload.headerBlock mode table
  let pad := if isFlagSet flags flagPadded then payload.padding else []
  return padLength ++ promised ++ encodedBlock ++ pad

/-- mh2c/frame/push_promise_frame.cpp:125-134, the sending constructor. -/
def PushPromiseFrame.new [Platform] (flags : UInt8) (streamId : UInt32)
    (payload : PushPromisePayload) (mode : EncodeMode) (table : DynamicTable) :
    Res PushPromiseFrame := do
  let encoded ← constructEncodedPayload flags payload mode table
  return {
    encodedPayload := encoded
    header := ⟨castToFhLength encoded.length, FrameType.pushPromise.value, flags, 0, streamId⟩
    payload := payload }

/-- mh2c/frame/push_promise_frame.cpp:136-141 (receiving constructor) with `decode_payload`, lines
76-108. -/
def PushPromiseFrame.ofRaw [Platform] (fh : FrameHeader) (raw : Bytes) (table : DynamicTable) :
    Res PushPromiseFrame := do
  let (padding, rest) ← extractPadding fh.flags raw
  let first ← readAt rest 0
  let value ← bytes2integral 4 rest
  let rest' ← eraseFirst 4 rest
  let block ← decodeHeaderBlock rest' table
  return {
    encodedPayload := raw, header := fh
    payload := ⟨UInt8.ofNat (highBits 8 1 first.toNat), UInt32.ofNat (lowBits 31 value), block,
      padding⟩ }

/-- mh2c/frame/push_promise_frame.cpp:149-154 `serialize`. -/
def PushPromiseFrame.serialize [Platform] (f : PushPromiseFrame) : Res Bytes :=
  .ok (f.header.serialize ++ f.encodedPayload)

/-! ## PING -/

/-- mh2c/frame/ping_frame.h:20-36 `ping_frame`. -/
structure PingFrame where
  header : FrameHeader
  opaqueData : Bytes
  deriving DecidableEq, Repr

/-- mh2c/frame/ping_frame.cpp:90-92. -/
def PingFrame.same (a b : PingFrame) : Bool := a.header.same b.header && a.opaqueData == b.opaqueData

/-- mh2c/frame/ping_frame.cpp:29-42 `construct_opaque_data`. -/
def constructOpaqueData (opaqueData : Bytes) : Res Bytes :=
  if opaqueData.length > 8 then .throw .invalidArgument
  else .ok (opaqueData ++ List.replicate (8 - opaqueData.length) 0)

/-- mh2c/frame/ping_frame.cpp:46-48, the sending constructor. -/
def PingFrame.new (flags : UInt8) (opaqueData : Bytes) : Res PingFrame := do
  let d ← constructOpaqueData opaqueData
  return { header := ⟨8, FrameType.ping.value, flags, 0, 0⟩, opaqueData := d }

/-- mh2c/frame/ping_frame.cpp:50-51, the receiving constructor: no check. -/
def PingFrame.ofRaw (fh : FrameHeader) (raw : Bytes) : Res PingFrame :=
  .ok { header := fh, opaqueData := raw }

/-- mh2c/frame/ping_frame.cpp:57-64 `serialize`. -/
def PingFrame.serialize [Platform] (f : PingFrame) : Res Bytes :=
  .ok (f.header.serialize ++ f.opaqueData)

/-! ## GOAWAY -/

/-- mh2c/frame/goaway_frame.h:18-23 `goaway_payload`. -/
structure GoawayPayload where
  reserved : UInt8
  lastStreamId : UInt32
  errorCode : UInt32
  debugData : Bytes
  deriving DecidableEq, Repr

/-- mh2c/frame/goaway_frame.cpp:66-71. -/
def GoawayPayload.same (a b : GoawayPayload) : Bool :=
  a.reserved == b.reserved && a.lastStreamId == b.lastStreamId && a.errorCode == b.errorCode &&
    a.debugData == b.debugData

/-- mh2c/frame/goaway_frame.h:28-44 `goaway_frame`. -/
structure GoawayFrame where
  header : FrameHeader
  payload : GoawayPayload
  deriving DecidableEq, Repr

/-- mh2c/frame/goaway_frame.cpp:145-147. -/
def GoawayFrame.same (a b : GoawayFrame) : Bool :=
  a.header.same b.header && a.payload.same b.payload

/-- mh2c/frame/goaway_frame.cpp:77-78 with lines 24-30. -/
def GoawayFrame.new (payload : GoawayPayload) : GoawayFrame :=
  { header := ⟨castToFhLength (4 + 4 + payload.debugData.length), FrameType.goaway.value, 0, 0, 0⟩
    payload := payload }

/-- mh2c/frame/goaway_frame.cpp:80-82 with `construct_payload`, lines 32-62. -/
def GoawayFrame.ofRaw (fh : FrameHeader) (raw : Bytes) : Res GoawayFrame :=
  if raw.length < 8 then .throw .invalidArgument
  else do
    let rAndId ← bytes2integral 4 raw
    let code ← bytes2integral 4 (raw.drop 4)
    let debug := if raw.length > 8 then raw.drop 8 else []
    return {
      header := fh
      payload := ⟨UInt8.ofNat (highBits 32 1 rAndId), UInt32.ofNat (lowBits 31 rAndId),
        UInt32.ofNat code, debug⟩ }

/-- mh2c/frame/goaway_frame.cpp:88-114 `serialize`. `m_reserved << 31` is an `int` shift of the
unmasked octet. -/
def GoawayFrame.serialize [Platform] (f : GoawayFrame) : Res Bytes := do
  let r ← shlInt f.payload.reserved.toNat 31
  return f.header.serialize ++ netBytes 4 (lowBits 31 f.payload.lastStreamId.toNat ||| r) ++
    netBytes 4 f.payload.errorCode.toNat ++
    (if f.payload.debugData.length > 0 then f.payload.debugData else [])

/-! ## WINDOW_UPDATE -/

/-- mh2c/frame/window_update_frame.h:19-40 `window_update_frame`. -/
structure WindowUpdateFrame where
  header : FrameHeader
  reserved : UInt8
  increment : UInt32
  deriving DecidableEq, Repr

/-- mh2c/frame/window_update_frame.cpp:121-125. -/
def WindowUpdateFrame.same (a b : WindowUpdateFrame) : Bool :=
  a.header.same b.header && a.reserved == b.reserved && a.increment == b.increment

/-- mh2c/frame/window_update_frame.cpp:54-59 `validate_window_size`. -/
def validateWindowSize (n : UInt32) : Res Unit :=
  if n.toNat > 0x7fffffff then .throw .invalidArgument else .ok ()

/-- mh2c/frame/window_update_frame.cpp:67-74; the constructor of lines 63-65 passes reserved 0. -/
def WindowUpdateFrame.new (streamId : UInt32) (reserved : UInt8) (increment : UInt32) :
    Res WindowUpdateFrame := do
  validateWindowSize increment
  return {
    header := ⟨4, FrameType.windowUpdate.value, 0, 0, streamId⟩
    reserved := reserved, increment := increment }

/-- mh2c/frame/window_update_frame.cpp:33-41 `construct_reserved`. -/
def constructReserved (raw : Bytes) : Res UInt8 :=
  if raw.length = 0 then .throw .invalidArgument
  else do
    let first ← readAt raw 0
    return UInt8.ofNat (highBits 8 1 first.toNat)

/-- mh2c/frame/window_update_frame.cpp:43-52 `construct_window_size`. -/
def constructWindowSize (raw : Bytes) : Res UInt32 :=
  if raw.length ≠ 4 then .throw .invalidArgument
  else do
    let value ← bytes2integral 4 raw
    return UInt32.ofNat (lowBits 31 value)

/-- mh2c/frame/window_update_frame.cpp:76-82, the receiving constructor. -/
def WindowUpdateFrame.ofRaw (fh : FrameHeader) (raw : Bytes) : Res WindowUpdateFrame := do
  let reserved ← constructReserved raw
  let increment ← constructWindowSize raw
  validateWindowSize increment
  return { header := fh, reserved := reserved, increment := increment }

/-- mh2c/frame/window_update_frame.cpp:86-89 `get_payload`. -/
def WindowUpdateFrame.getPayload (f : WindowUpdateFrame) : UInt32 :=
  UInt32.ofNat ((lowBits 1 f.reserved.toNat <<< 31) ||| lowBits 31 f.increment.toNat)

/-- mh2c/frame/window_update_frame.cpp:91-103 `serialize`. -/
def WindowUpdateFrame.serialize [Platform] (f : WindowUpdateFrame) : Res Bytes :=
  .ok (f.header.serialize ++
    netBytes 4 ((lowBits 1 f.reserved.toNat <<< 31) ||| lowBits 31 f.increment.toNat))

/-! ## CONTINUATION -/

/-- mh2c/frame/continuation_frame.h:22-44 `continuation_frame`. -/
structure ContinuationFrame where
  encodedPayload : Bytes
  header : FrameHeader
  headerBlock : HeaderBlock
  deriving DecidableEq, Repr

/-- mh2c/frame/continuation_frame.cpp:126-129: the encoded payload is not compared. -/
def ContinuationFrame.same (a b : ContinuationFrame) : Bool :=
  a.header.same b.header && sameBlock a.headerBlock b.headerBlock

/-- mh2c/frame/continuation_frame.cpp:71-79 with lines 26-49. -/
def ContinuationFrame.new (flags : UInt8) (streamId : UInt32) (block : HeaderBlock)
    (mode : EncodeMode) (table : DynamicTable) : Res ContinuationFrame := do
  let payload ← encodeHeaderBlock block mode table
  return {
    encodedPayload := payload
    header := ⟨castToFhLength payload.length, FrameType.continuation.value, flags, 0, streamId⟩
    headerBlock := block }

/-- mh2c/frame/continuation_frame.cpp:81-86 with lines 51-64. -/
def ContinuationFrame.ofRaw [Platform] (fh : FrameHeader) (raw : Bytes) (table : DynamicTable) :
    Res ContinuationFrame := do
  let block ← decodeHeaderBlock raw table
  return { encodedPayload := raw, header := fh, headerBlock := block }

/-- mh2c/frame/continuation_frame.cpp:94-99 `serialize`. -/
def ContinuationFrame.serialize [Platform] (f : ContinuationFrame) : Res Bytes :=
  .ok (f.header.serialize ++ f.encodedPayload)

/-! ## Raw frame -/

/-- mh2c/frame/raw_frame.h:16-29 `raw_frame`. -/
structure RawFrame where
  header : FrameHeader
  payload : Bytes
  deriving DecidableEq, Repr

/-- mh2c/frame/raw_frame.cpp:22-27 `serialize`. -/
def RawFrame.serialize [Platform] (f : RawFrame) : Res Bytes :=
  .ok (f.header.serialize ++ f.payload)

/-! ## Any frame -/

/-- mh2c/frame/common_type.h:17 `h2_frame_ptr`: an owned frame of any class; the constructor is its
dynamic type. -/
inductive Frame
  | data (f : DataFrame)
  | headers (f : HeadersFrame)
  | priority (f : PriorityFrame)
  | rstStream (f : RstStreamFrame)
  | settings (f : SettingsFrame)
  | pushPromise (f : PushPromiseFrame)
  | ping (f : PingFrame)
  | goaway (f : GoawayFrame)
  | windowUpdate (f : WindowUpdateFrame)
  | continuation (f : ContinuationFrame)
  | raw (f : RawFrame)
  deriving DecidableEq, Repr

/-- `i_frame::get_header` (mh2c/frame/i_frame.h:19), all overrides. -/
def Frame.header : Frame → FrameHeader
  | .data f => f.header
  | .headers f => f.header
  | .priority f => f.header
  | .rstStream f => f.header
  | .settings f => f.header
  | .pushPromise f => f.header
  | .ping f => f.header
  | .goaway f => f.header
  | .windowUpdate f => f.header
  | .continuation f => f.header
  | .raw f => f.header

/-- `i_frame::serialize` (mh2c/frame/i_frame.h:21), all overrides. -/
def Frame.serialize [Platform] : Frame → Res Bytes
  | .data f => f.serialize
  | .headers f => f.serialize
  | .priority f => f.serialize
  | .rstStream f => f.serialize
  | .settings f => f.serialize
  | .pushPromise f => f.serialize
  | .ping f => f.serialize
  | .goaway f => f.serialize
  | .windowUpdate f => f.serialize
  | .continuation f => f.serialize
  | .raw f => f.serialize

end Mh2c
