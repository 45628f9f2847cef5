/-
Model of the texts of exceptions, `e.what()`. The functions that throw an exception with a text of
their own, and those that let it pass, once more, with the text: `Told` is `Res` with the text of the
exception. `Proofs/What` shows that they are the functions of the other files but for the text.
-/
import Verif.Model.Sample
import Verif.Model.Tls

namespace Mh2c

/-- What `e.what()` gives. -/
inductive What
  /-- a text that the library makes up -/
  | said (text : Bytes)
  /-- the same with a number in the middle that comes from outside: the result of a call of OpenSSL or
  `errno` -/
  | system (before after : Bytes)
  /-- the text of the standard library for `std::map::at` and `std::unordered_map::at` without the key -/
  | mapAt
  /-- the text of the standard library for `std::vector::at` with an index that is too large -/
  | vectorAt (index size : Nat)
  deriving DecidableEq, Repr

/-- Outcome of a C++ call, with the text of the exception (see `Res`). -/
inductive Told (α : Type) where
  | ok (a : α)
  | throw (e : Exc) (what : What)
  | ub (k : Ub)
  | diverge
  deriving DecidableEq, Repr

namespace Told

variable {α β : Type}

/-- The outcome without the text. -/
def toRes : Told α → Res α
  | ok a => .ok a
  | throw e _ => .throw e
  | ub k => .ub k
  | diverge => .diverge

/-- An exception of `x`, if any, has this text. -/
def saying (w : What) : Res α → Told α
  | .ok a => ok a
  | .throw e => throw e w
  | .ub k => ub k
  | .diverge => diverge

/-- A call that does not throw. (If it did, the text would be empty.) -/
def quiet (x : Res α) : Told α := saying (.said []) x

/-- Sequencing: the first abnormal outcome ends the call. -/
protected def bind (x : Told α) (f : α → Told β) : Told β :=
  match x with
  | ok a => f a
  | throw e w => throw e w
  | ub k => ub k
  | diverge => diverge

instance : Monad Told where
  pure := ok
  bind := Told.bind

end Told

/-! ## Huffman code -/

namespace Huffman

/-- mh2c/hpack/huffman_decoder.cpp:17-33 `construct_integer`. -/
def constructIntegerTold (data : Bytes) (requiredByte : Nat) : Told Nat :=
  if data.length < requiredByte then
    .throw .invalidArgument (.said (bstr "invalid argument: encoded_data.size()=" ++
      Stream.toString data.length ++ bstr ", required_byte=" ++ Stream.toString requiredByte))
  else .saying (.vectorAt data.length data.length) (constructIntegerLoop requiredByte data 0)

/-- mh2c/hpack/huffman_decoder.cpp:53-78, as `candidate`. -/
def candidateTold (temp : Bytes) (carry : Rec) (bitLength : Nat) : Told (Nat × Rec × Nat) :=
  if carry.2 < bitLength then do
    let requiredBit := bitLength - carry.2
    let requiredByte := if requiredBit % 8 = 0 then requiredBit / 8 else requiredBit / 8 + 1
    let target ← constructIntegerTold temp requiredByte
    let shiftBit := requiredByte * 8 + carry.2 - bitLength
    let shiftedTarget ← .quiet (shrU32 target shiftBit)
    let back ← .quiet (shlU32 shiftedTarget shiftBit)
    let high ← .quiet (shlU32 carry.1 (bitLength - carry.2))
    return (high ||| shiftedTarget, (target ^^^ back, shiftBit), requiredByte)
  else do
    let target := carry.1
    let shiftBit := carry.2 - bitLength
    let shiftedTarget ← .quiet (shrU32 target shiftBit)
    let back ← .quiet (shlU32 shiftedTarget shiftBit)
    return (shiftedTarget, (target ^^^ back, shiftBit), 0)

/-- mh2c/hpack/huffman_decoder.cpp:45-92, as `search`. -/
def searchTold (temp : Bytes) (carry : Rec) : List (Nat × List (Nat × Nat)) → Told (Option Found)
  | [] => .ok none
  | (bitLength, decodeMap) :: rest =>
      if temp.length = 0 ∧ carry.2 < bitLength then .ok (some .leftover)
      else do
        let (key, carry', eraseLength) ← candidateTold temp carry bitLength
        match decodeMap.lookup key with
        | some sym => return some (.symbol sym bitLength eraseLength carry')
        | none => searchTold temp carry rest

/-- mh2c/hpack/huffman_decoder.cpp:94-101: the text of the failure branch. -/
def decodeFailed (carry : Rec) (t0 t1 t2 t3 : UInt8) : Bytes :=
  bstr "decode failed: carry_over.first=" ++ Stream.toString carry.1 ++
    bstr ", carry_over.second=" ++ Stream.toString carry.2 ++
    bstr ", temp_encoded_data[0]=" ++ Stream.toString t0.toNat ++
    bstr ", temp_encoded_data[1]=" ++ Stream.toString t1.toNat ++
    bstr ", temp_encoded_data[2]=" ++ Stream.toString t2.toNat ++
    bstr ", temp_encoded_data[3]=" ++ Stream.toString t3.toNat

/-- mh2c/hpack/huffman_decoder.cpp:42-104, as `decodeLoop`. -/
def decodeLoopTold (total decoded : Nat) (temp : Bytes) (carry : Rec) (out : Bytes) : Told Bytes :=
  if decoded < total then
    match searchTold temp carry decodeTable with
    | .throw e w => .throw e w
    | .ub k => .ub k
    | .diverge => .diverge
    | .ok none =>
        match temp with
        | t0 :: t1 :: t2 :: t3 :: _ => .throw .runtimeError (.said (decodeFailed carry t0 t1 t2 t3))
        | _ => .ub .outOfBounds
    | .ok (some .leftover) =>
        if 0 < carry.2 then decodeLoopTold total (decoded + carry.2) temp carry out else .diverge
    | .ok (some (.symbol sym bitLength eraseLength carry')) =>
        match eraseFirst eraseLength temp with
        | .throw e => .throw e (.said [])
        | .ub k => .ub k
        | .diverge => .diverge
        | .ok temp' =>
            if 0 < bitLength then
              decodeLoopTold total (decoded + bitLength) temp' carry' (out ++ [u8 sym])
            else .diverge
  else .ok out
termination_by total - decoded

/-- mh2c/hpack/huffman_decoder.cpp:35-107 `huffman::decode`. -/
def decodeTold (encoded : Bytes) : Told Bytes :=
  decodeLoopTold (encoded.length * 8) 0 encoded (0, 0) []

end Huffman

/-! ## Header blocks -/

/-- mh2c/hpack/header_decoder.cpp:32-51 `check_prefix`. -/
def checkPrefixTold (target : UInt8) : Told HeaderPrefix :=
  .saying (.said (bstr "target is invalid: " ++ Stream.toString target.toNat)) (checkPrefix target)

/-- mh2c/hpack/header_decoder.cpp:53-92 `decode_index`. -/
def decodeIndexTold (v : Bytes) (p : HeaderPrefix) : Told (Nat × Nat) :=
  .saying (.said (bstr "prefix is invalid: " ++ Stream.toString p.value.toNat)) (decodeIndex v p)

/-- mh2c/hpack/header_decoder.cpp:103-155, as `decodeHeaderString`. -/
def decodeHeaderStringTold [Platform] (v : Bytes) : Told (Bytes × Nat) := do
  let (length, intLength) ← .quiet (decodeIntWithLength 7 v)
  let first ← .quiet (front v)
  let isHuffman := highBits 8 1 first.toNat
  let str ←
    if isHuffman ≠ 0 then do
      let data ← .quiet (copyRange v intLength length)
      let decoded ← Huffman.decodeTold data
      .quiet (addressRange decoded 0 decoded.length)
    else .quiet (addressRange v intLength length)
  return (str, intLength + length)

/-- mh2c/hpack/header_decoder.cpp:157-165 `make_indexed_header`. -/
def makeIndexedHeaderTold (index : Nat) (table : DynamicTable) : Told Header :=
  if index > staticTableEntries.length then
    .saying (.vectorAt (index - staticTableEntries.length - 1) table.entries.length)
      (table.atPos (index - staticTableEntries.length - 1))
  else .saying .mapAt (staticTableAt index)

/-- mh2c/hpack/header_decoder.cpp:189-215, as `decodeLiteral`. -/
def decodeLiteralTold [Platform] (v : Bytes) (p : HeaderPrefix) (indexedHeader : Header)
    (indexLength : Nat) : Told (HeaderEntry × Nat) := do
  let data ← .quiet (eraseFirst indexLength v)
  if indexedHeader.1.length = 0 then do
    let (name, nameLength) ← decodeHeaderStringTold data
    let data' ← .quiet (eraseFirst nameLength data)
    let (value, valueLength) ← decodeHeaderStringTold data'
    let _ ← .quiet (eraseFirst valueLength data')
    return (.ofHeader p (name, value), indexLength + nameLength + valueLength)
  else do
    let (value, valueLength) ← decodeHeaderStringTold data
    let _ ← .quiet (eraseFirst valueLength data)
    return (.ofHeader p (indexedHeader.1, value), indexLength + valueLength)

/-- mh2c/hpack/header_decoder.cpp:167-216 `decode_header`. -/
def decodeHeaderTold [Platform] (v : Bytes) (table : DynamicTable) : Told (HeaderEntry × Nat) := do
  let first ← .quiet (front v)
  let p ← checkPrefixTold first
  if p = .sizeUpdate then do
    let (maxSize, length) ← .quiet (decodeMaxSize v)
    return (.ofSize p maxSize, length)
  else do
    let (index, indexLength) ← decodeIndexTold v p
    let indexedHeader ←
      if index > 0 then makeIndexedHeaderTold index table else .ok ([], [])
    if p = .indexed then return (.ofHeader p indexedHeader, indexLength)
    else decodeLiteralTold v p indexedHeader indexLength

/-- mh2c/frame/headers_frame.cpp:132-136, mh2c/frame/continuation_frame.cpp:57-61 and
mh2c/frame/push_promise_frame.cpp:101-105, as `decodeHeaderBlock`. -/
def decodeHeaderBlockTold [Platform] (data : Bytes) (table : DynamicTable) : Told HeaderBlock :=
  if data.length > 0 then
    match decodeHeaderTold data table with
    | .throw e w => .throw e w
    | .ub k => .ub k
    | .diverge => .diverge
    | .ok (entry, n) =>
        if n > data.length then .ub .badIterator
        else if 0 < n then do
          let rest ← decodeHeaderBlockTold (data.drop n) table
          return entry :: rest
        else .diverge
  else .ok []
termination_by data.length
decreasing_by simp; omega

/-! ## Frames -/

/-- mh2c/frame/headers_frame.cpp:160-168 with lines 90-139. -/
def HeadersFrame.ofRawTold [Platform] (fh : FrameHeader) (raw : Bytes) (table : DynamicTable) :
    Told HeadersFrame := do
  let (padding, rest) ← .quiet (extractPadding fh.flags raw)
  let (priority, rest') ← .quiet (extractPriority fh.flags rest)
  let block ← decodeHeaderBlockTold rest' table
  return {
    encodedPayload := raw, header := fh, padding := padding, priority := priority
    headerBlock := block }

/-- `"invalid payload size: " + std::to_string(raw_payload.size())`, for example
mh2c/frame/rst_stream_frame.cpp:30-31. -/
def invalidPayloadSize (raw : Bytes) : What :=
  .said (bstr "invalid payload size: " ++ Stream.toString raw.length)

/-- mh2c/frame/priority_frame.cpp:48-62 `validate_payload`. -/
def validatePriorityTold (p : PriorityOption) : Told Unit :=
  if p.exclusive.toNat > 1 then
    .throw .invalidArgument
      (.said (bstr "invalid exclusive: " ++ Stream.toString p.exclusive.toNat))
  else if p.streamDependency.toNat > 0x7fffffff then
    .throw .invalidArgument
      (.said (bstr "invalid stream dependency: " ++ Stream.toString p.streamDependency.toNat))
  else .ok ()

/-- mh2c/frame/priority_frame.cpp:76-80, the sending constructor. -/
def PriorityFrame.newTold (streamId : UInt32) (payload : PriorityOption) : Told PriorityFrame := do
  validatePriorityTold payload
  return { header := ⟨5, FrameType.priority.value, 0, 0, streamId⟩, payload := payload }

/-- mh2c/frame/priority_frame.cpp:82-86 with lines 32-46. -/
def PriorityFrame.ofRawTold (fh : FrameHeader) (raw : Bytes) : Told PriorityFrame := do
  let payload ← .saying (invalidPayloadSize raw) (constructPayload raw)
  validatePriorityTold payload
  return { header := fh, payload := payload }

/-- mh2c/frame/rst_stream_frame.cpp:47-49 with lines 28-39. -/
def RstStreamFrame.ofRawTold (fh : FrameHeader) (raw : Bytes) : Told RstStreamFrame :=
  .saying (invalidPayloadSize raw) (ofRaw fh raw)

/-- mh2c/frame/push_promise_frame.cpp:136-141 with lines 76-108. -/
def PushPromiseFrame.ofRawTold [Platform] (fh : FrameHeader) (raw : Bytes) (table : DynamicTable) :
    Told PushPromiseFrame := do
  let (padding, rest) ← .quiet (extractPadding fh.flags raw)
  let first ← .quiet (readAt rest 0)
  let value ← .quiet (bytes2integral 4 rest)
  let rest' ← .quiet (eraseFirst 4 rest)
  let block ← decodeHeaderBlockTold rest' table
  return {
    encodedPayload := raw, header := fh
    payload := ⟨UInt8.ofNat (highBits 8 1 first.toNat), UInt32.ofNat (lowBits 31 value), block,
      padding⟩ }

/-- mh2c/frame/ping_frame.cpp:46-48 with lines 29-42, the sending constructor. -/
def PingFrame.newTold (flags : UInt8) (opaqueData : Bytes) : Told PingFrame :=
  .saying (.said (bstr "invalid opaque data size: " ++ Stream.toString opaqueData.length))
    (PingFrame.new flags opaqueData)

/-- mh2c/frame/goaway_frame.cpp:80-82 with lines 32-62. -/
def GoawayFrame.ofRawTold (fh : FrameHeader) (raw : Bytes) : Told GoawayFrame :=
  .saying (invalidPayloadSize raw) (ofRaw fh raw)

/-- mh2c/frame/window_update_frame.cpp:54-59 `validate_window_size`. -/
def validateWindowSizeTold (n : UInt32) : Told Unit :=
  .saying (.said (bstr "invalid window size: " ++ Stream.toString n.toNat)) (validateWindowSize n)

/-- mh2c/frame/window_update_frame.cpp:67-74, the sending constructor. -/
def WindowUpdateFrame.newTold (streamId : UInt32) (reserved : UInt8) (increment : UInt32) :
    Told WindowUpdateFrame := do
  validateWindowSizeTold increment
  return {
    header := ⟨4, FrameType.windowUpdate.value, 0, 0, streamId⟩
    reserved := reserved, increment := increment }

/-- mh2c/frame/window_update_frame.cpp:76-82 with lines 33-52. -/
def WindowUpdateFrame.ofRawTold (fh : FrameHeader) (raw : Bytes) : Told WindowUpdateFrame := do
  let reserved ← .saying (invalidPayloadSize raw) (constructReserved raw)
  let increment ← .saying (invalidPayloadSize raw) (constructWindowSize raw)
  validateWindowSizeTold increment
  return { header := fh, reserved := reserved, increment := increment }

/-- mh2c/frame/continuation_frame.cpp:81-86 with lines 51-64. -/
def ContinuationFrame.ofRawTold [Platform] (fh : FrameHeader) (raw : Bytes) (table : DynamicTable) :
    Told ContinuationFrame := do
  let block ← decodeHeaderBlockTold raw table
  return { encodedPayload := raw, header := fh, headerBlock := block }

/-- mh2c/frame/frame_builder.cpp:56-66 `build_headers_frame`: the frame, and what is written to
`std::cout`. -/
def buildHeadersFrameTold [Platform] (fh : FrameHeader) (raw : Bytes) (table : DynamicTable) :
    Told Frame × List What :=
  match HeadersFrame.ofRawTold fh raw table with
  | .ok f => (.ok (.headers f), [])
  | .throw _ w => (.ok (.raw ⟨fh, raw⟩), [w])
  | .ub k => (.ub k, [])
  | .diverge => (.diverge, [])

/-- mh2c/frame/frame_builder.cpp:138-143 `build_frame`: the frame, and what is written to
`std::cout`, one line for each text. -/
def buildFrameTold [Platform] (fh : FrameHeader) (raw : Bytes) (table : DynamicTable) :
    Told Frame × List What :=
  match frameTypeOf fh.type with
  | some .data => (.quiet (buildDataFrame fh raw), [])
  | some .headers => buildHeadersFrameTold fh raw table
  | some .priority => (do return .priority (← PriorityFrame.ofRawTold fh raw), [])
  | some .rstStream => (do return .rstStream (← RstStreamFrame.ofRawTold fh raw), [])
  | some .settings => (.quiet (buildSettingsFrame fh raw), [])
  | some .pushPromise => (do return .pushPromise (← PushPromiseFrame.ofRawTold fh raw table), [])
  | some .ping => (.quiet do return .ping (← PingFrame.ofRaw fh raw), [])
  | some .goaway => (do return .goaway (← GoawayFrame.ofRawTold fh raw), [])
  | some .windowUpdate => (do return .windowUpdate (← WindowUpdateFrame.ofRawTold fh raw), [])
  | some .continuation => (do return .continuation (← ContinuationFrame.ofRawTold fh raw table), [])
  | none => (.throw .outOfRange .mapAt, [])

/-! ## The client -/

/-- mh2c/http2_client.cpp:36-42 with mh2c/hpack/header_type.cpp:43-56. -/
def updateDynamicTableEntryTold (e : HeaderEntry) (t : DynamicTable) : Told DynamicTable :=
  if e.pfx = .incrementalIndexing then do
    let h ← .saying (.said (bstr "m_entry doesn't hold header_t")) e.getHeader
    .quiet (t.push h)
  else if e.pfx = .sizeUpdate then do
    let n ← .saying (.said (bstr "m_entry doesn't hold size_t")) e.getMaxSize
    .quiet (t.updateTableSize n)
  else .ok t

/-- mh2c/http2_client.cpp:31-46 `update_dynamic_table(header_block, table)`. -/
def updateDynamicTableTold : HeaderBlock → DynamicTable → Told Unit × DynamicTable
  | [], t => (.ok (), t)
  | e :: es, t =>
      match updateDynamicTableEntryTold e t with
      | .ok t' => updateDynamicTableTold es t'
      | .throw x w => (.throw x w, t)
      | .ub k => (.ub k, t)
      | .diverge => (.diverge, t)

/-- mh2c/http2_client.cpp:48-83 `update_dynamic_table(frame_ptr, table)`. -/
def updateDynamicTableFrameTold (f : Frame) (t : DynamicTable) : Told Unit × DynamicTable :=
  match frameTypeOf f.header.type with
  | some .headers =>
      match f with
      | .headers h => updateDynamicTableTold h.headerBlock t
      | _ => (.ub .nullDeref, t)
  | some .pushPromise =>
      match f with
      | .pushPromise h => updateDynamicTableTold h.payload.headerBlock t
      | _ => (.ub .nullDeref, t)
  | some .continuation =>
      match f with
      | .continuation h => updateDynamicTableTold h.headerBlock t
      | _ => (.ub .nullDeref, t)
  | _ => (.quiet (updateDynamicTableFrame f t).1, (updateDynamicTableFrame f t).2)

namespace Client

/-- mh2c/ssl/ssl_connection.cpp:110-115: the text when `BIO_write` failed for `length` octets. -/
def writeFailed (length : Nat) : What :=
  .system (bstr "BIO_write failed: result=") (bstr ", length=" ++ Stream.toString length)

/-- mh2c/ssl/ssl_connection.cpp:127-132: the text when `BIO_read` failed for `length` octets. -/
def readFailed (length : Nat) : What :=
  .system (bstr "BIO_read failed: result=") (bstr ", length=" ++ Stream.toString length)

/-- mh2c/http2_client.cpp:112-116 and 169-172 `send_raw_data`. -/
def sendRawDataTold (c : Client) (data : Bytes) : Told Unit × Client :=
  (.saying (writeFailed data.length) (c.sendRawData data).1, (c.sendRawData data).2)

/-- mh2c/http2_client.cpp:118-121 and 174-177 `receive_raw_data`. -/
def receiveRawDataTold (c : Client) (length : Nat) : Told Bytes × Client :=
  (.saying (readFailed length) (c.receiveRawData length).1, (c.receiveRawData length).2)

/-- mh2c/http2_client.ipp:9-14 `send_frame`. -/
def sendFrameTold [Platform] (c : Client) (f : Frame) : Told Unit × Client :=
  match f.serialize with
  | .ok raw => c.sendRawDataTold raw
  | .throw e => (.throw e (.said []), c)
  | .ub k => (.ub k, c)
  | .diverge => (.diverge, c)

/-- mh2c/http2_client.cpp:142-145: build the frame and update the response table. -/
def processFrameTold [Platform] (c : Client) (fh : FrameHeader) (raw : Bytes) :
    Told Frame × Client × List What :=
  match buildFrameTold fh raw c.responseTable with
  | (.ok f, said) =>
      match updateDynamicTableFrameTold f c.responseTable with
      | (.ok (), t) => (.ok f, { c with responseTable := t }, said)
      | (.throw e w, t) => (.throw e w, { c with responseTable := t }, said)
      | (.ub k, t) => (.ub k, { c with responseTable := t }, said)
      | (.diverge, t) => (.diverge, { c with responseTable := t }, said)
  | (.throw e w, said) => (.throw e w, c, said)
  | (.ub k, said) => (.ub k, c, said)
  | (.diverge, said) => (.diverge, c, said)

/-- mh2c/http2_client.cpp:132-146 `receive_frame`: the outcome, the client, and what is written to
`std::cout`, one line for each text. -/
def receiveFrameTold [Platform] (c : Client) : Told Frame × Client × List What :=
  match c.receiveRawDataTold 9 with
  | (.ok rawFh, c1) =>
      match buildFrameHeader rawFh with
      | .ok fh =>
          if fh.length.toNat > 0 then
            match c1.receiveRawDataTold fh.length.toNat with
            | (.ok raw, c2) => c2.processFrameTold fh raw
            | (.throw e w, c2) => (.throw e w, c2, [])
            | (.ub k, c2) => (.ub k, c2, [])
            | (.diverge, c2) => (.diverge, c2, [])
          else c1.processFrameTold fh []
      | .throw e => (.throw e (.said []), c1, [])
      | .ub k => (.ub k, c1, [])
      | .diverge => (.diverge, c1, [])
  | (.throw e w, c1) => (.throw e w, c1, [])
  | (.ub k, c1) => (.ub k, c1, [])
  | (.diverge, c1) => (.diverge, c1, [])

/-- mh2c/http2_client.cpp:148-152 `update_request_dynamic_table(header_block)`. -/
def updateRequestDynamicTableTold (c : Client) (block : HeaderBlock) : Told Unit × Client :=
  let (r, t) := updateDynamicTableTold block c.requestTable
  (r, { c with requestTable := t })

end Client

/-! ## The constructor -/

/-- `std::to_string` of an `int` or a `long`, for example mh2c/ssl/ssl_connection.cpp:53. -/
def intToString (n : Int) : Bytes :=
  if n < 0 then bstr "-" ++ Stream.toString n.natAbs else Stream.toString n.natAbs

/-- mh2c/ssl/ssl_connection.cpp:33-101 with mh2c/ssl/ssl_ctx.cpp:15-19 and mh2c/ssl/ssl_bio.cpp:17-22:
the outcome of the constructor. The octets of the last text end, as a C string, at the first NUL. -/
def constructTold (mode : VerifyMode) (env : TlsEnv) : Told Unit :=
  if env.ctxOk = false then .throw .runtimeError (.said (bstr "SSL_CTX_new failed"))
  else if env.bioOk = false then .throw .runtimeError (.said (bstr "BIO_new_ssl_connect failed"))
  else if env.hasSsl = false then .throw .runtimeError (.said (bstr "BIO_get_ssl failed"))
  else if env.setAlpn ≠ 0 then
    .throw .runtimeError (.said (bstr "SSL_set_alpn_protos failed: err=" ++ intToString env.setAlpn))
  else if env.setVerifyPaths ≠ 1 then
    .throw .runtimeError (.said (bstr "SSL_CTX_set_default_verify_paths failed: err=" ++
      intToString env.setVerifyPaths))
  else if env.connect ≤ 0 then
    .throw .runtimeError (.system (bstr "BIO_do_connect failed: err_code=") [])
  else if env.handshake ≤ 0 then
    .throw .runtimeError (.system (bstr "BIO_do_handshake failed: err_code=") [])
  else if mode ≠ .verifyNone ∧ env.verifyResult ≠ 0 then
    .throw .runtimeError (.said (bstr "SSL_get_verify_result failed: verify_result=" ++
      intToString env.verifyResult))
  else
    let alpnProtos : Bytes := [0x02, 0x68, 0x32]
    let expected := env.alpnSelected.length = alpnProtos.length - 1 ∧
      env.alpnSelected = (alpnProtos.drop 1).take env.alpnSelected.length
    if ¬ expected then
      .throw .runtimeError (.said (terminated
        (bstr "unexpected alpn result: alpn_result=" ++ env.alpnSelected)))
    else .ok ()

/-! ## The sample program -/

/-- The texts that come from outside: those of the standard library, and the number OpenSSL or the
system gave (see `What`; for example mh2c/ssl/ssl_connection.cpp:111-115). -/
structure Outside where
  mapAt : Bytes
  vectorAt : Nat → Nat → Bytes
  number : Int

/-- The text that `e.what()` points to (for example sample/h2_get/sample_h2_get.cpp:41). -/
def What.text (o : Outside) : What → Bytes
  | said t => t
  | system before after => before ++ intToString o.number ++ after
  | mapAt => o.mapAt
  | vectorAt i n => o.vectorAt i n

namespace Sample

/-- mh2c/frame/frame_builder.cpp:62 and sample/h2_get/sample_h2_get.cpp:41
`std::cout << e.what() << '\n'`. -/
def say (o : Outside) (ws : List What) (out : Stream) : Stream :=
  ws.foldl (fun s w => s.text (w.text o ++ bstr "\n")) out

/-- sample/h2_get/sample_h2_get.cpp:28-46 `receive_frames`, with the output of `e.what()`. The output
of a frame whose printing throws is not kept; none does (C70). -/
def receiveFramesTold [Platform] (o : Outside) (s : State) : Told UInt8 × State :=
  match s.client.receiveFrameTold with
  | (.ok f, c, said) =>
      match f.dump (say o said s.cout) with
      | .ok out =>
          if isMoreData f.header then
            if c.conn.reads.length < s.client.conn.reads.length then
              receiveFramesTold o ⟨c, out⟩
            else (.diverge, ⟨c, out⟩)
          else (.ok f.header.type, ⟨c, out⟩)
      | .throw e => (.throw e .mapAt, ⟨c, say o (said ++ [.mapAt]) s.cout⟩)
      | .ub k => (.ub k, ⟨c, say o said s.cout⟩)
      | .diverge => (.diverge, ⟨c, say o said s.cout⟩)
  | (.throw e w, c, said) => (.throw e w, ⟨c, say o (said ++ [w]) s.cout⟩)
  | (.ub k, c, said) => (.ub k, ⟨c, say o said s.cout⟩)
  | (.diverge, c, said) => (.diverge, ⟨c, say o said s.cout⟩)
termination_by s.client.conn.reads.length

/-- A statement of `main` (sample/h2_get/sample_h2_get.cpp:55-106) that only touches the client. -/
def onClientTold {α : Type} (f : Client → Told α × Client) (s : State) : Told α × State :=
  let (r, c) := f s.client
  (r, { s with client := c })

/-- Sequencing of the statements of `main` (sample/h2_get/sample_h2_get.cpp:55-107): an exception
ends it. -/
def andThenTold {α β : Type} (f : State → Told α × State) (g : α → State → Told β × State)
    (s : State) : Told β × State :=
  match f s with
  | (.ok a, s') => g a s'
  | (.throw e w, s') => (.throw e w, s')
  | (.ub k, s') => (.ub k, s')
  | (.diverge, s') => (.diverge, s')

/-- sample/h2_get/sample_h2_get.cpp:70 `h2_client.receive_frame()` in `main`, with the line that the
library may write. -/
def receiveTold [Platform] (o : Outside) (s : State) : Told Frame × State :=
  let (r, c, said) := s.client.receiveFrameTold
  (r, ⟨c, say o said s.cout⟩)

/-- sample/h2_get/sample_h2_get.cpp:48-110 `main`, from the connected client on, with the texts of the
exceptions. The statements that are `Told.quiet` here throw nothing (C137). -/
def mainTold [Platform] (o : Outside) : State → Told Unit × State :=
  andThenTold (onClientTold (·.sendRawDataTold (bstr "PRI * HTTP/2.0\r\n\r\nSM\r\n\r\n"))) fun _ =>
  andThenTold (onClientTold (·.sendFrameTold settingsToSend)) fun _ =>
  andThenTold (onClientTold fun c =>
    (.quiet (c.updateRequestTableSize 8192).1, (c.updateRequestTableSize 8192).2)) fun _ =>
  andThenTold (receiveTold o) fun f =>
  andThenTold (fun s => (.saying .mapAt (print f s).1, (print f s).2)) fun _ =>
  andThenTold (onClientTold (·.sendFrameTold settingsAck)) fun _ =>
  andThenTold (fun s => (.quiet (requestFrame s.client.requestTable), s)) fun hf =>
  andThenTold (onClientTold (·.sendFrameTold (.headers hf))) fun _ =>
  andThenTold (onClientTold (·.updateRequestDynamicTableTold hf.headerBlock)) fun _ =>
  andThenTold (receiveFramesTold o) fun last =>
  if last ≠ FrameType.goaway.value then onClientTold (·.sendFrameTold goawayToSend)
  else fun s => (.ok (), s)

/-- sample/h2_get/sample_h2_get.cpp:48-110 `main`: with verification of the server. What the
calls of OpenSSL in the constructor give is `env`; what the connection then does is `conn`. -/
def programTold [Platform] (o : Outside) (env : TlsEnv) (conn : Conn) : Told Unit × State :=
  match constructTold .verifyServerCert env with
  | .ok () => mainTold o ⟨Client.new conn, ⟨[], false⟩⟩
  | .throw e w => (.throw e w, ⟨Client.new conn, ⟨[], false⟩⟩)
  | .ub k => (.ub k, ⟨Client.new conn, ⟨[], false⟩⟩)
  | .diverge => (.diverge, ⟨Client.new conn, ⟨[], false⟩⟩)

end Sample

end Mh2c
