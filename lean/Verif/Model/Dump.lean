/-
Model of the printing code: `dump` of every frame class, `operator<<` for frame headers, frames and
dynamic tables.

A stream is its output so far together with the only format flag that the library changes and that
outlives a statement: the number base. `std::setw` applies to the next item only and
`std::setfill` has an effect only together with a width. `Verif.Model.Format` has a finer model of
streams, with the other flags, and agrees with this one (`C131_models_agree`).
-/
import Verif.Model.Frames

namespace Mh2c

/-- `std::ostream`, the parameter of `dump` (mh2c/frame/i_frame.h:23): octets written and whether
`std::hex` is in force. Simplification: the stream never fails and starts with width 0. -/
structure Stream where
  out : Bytes
  hex : Bool
  deriving DecidableEq, Repr

namespace Stream

/-- The character of a digit, lower case, as `std::to_string` and `<<` write it (first used in
mh2c/frame/frame_header.cpp:66). -/
def digitChar (d : Nat) : UInt8 := if d < 10 then u8 (48 + d) else u8 (87 + d)

/-- Digits of `n` in base `b`, at most `fuel` of them, most significant first
(mh2c/frame/frame_header.cpp:66, mh2c/frame/ping_frame.cpp:73,
mh2c/frame/settings_frame.cpp:99-100). -/
def digitsAux : (fuel b n : Nat) → Bytes
  | 0, _, _ => []
  | fuel + 1, b, n =>
      if n < b then [digitChar n] else digitsAux fuel b (n / b) ++ [digitChar (n % b)]

/-- Digits of `n` in base `b ≥ 2` (`n + 1` digits always suffice); see `digitsAux` for the places in
the code (mh2c/frame/frame_header.cpp:66). -/
def digits (b n : Nat) : Bytes := digitsAux (n + 1) b n

/-- `std::to_string`, for example mh2c/frame/frame_header.cpp:66-70: always decimal. -/
def toString (n : Nat) : Bytes := digits 10 n

/-- `out_stream << text`, for example mh2c/frame/frame_header.cpp:65-71. -/
def text (t : Bytes) (s : Stream) : Stream := { s with out := s.out ++ t }

/-- `out_stream << n` for an unsigned integer, mh2c/frame/settings_frame.cpp:93-100: uses the
current base. -/
def number (n : Nat) (s : Stream) : Stream :=
  { s with out := s.out ++ digits (if s.hex then 16 else 10) n }

/-- mh2c/frame/ping_frame.cpp:73-74, and alike in the other classes: `out_stream << std::hex <<
std::setw(2) << std::setfill('0') << static_cast<int>(b)`. -/
def hexByte (b : UInt8) (s : Stream) : Stream :=
  let d := digits 16 b.toNat
  { out := s.out ++ List.replicate (2 - d.length) 48 ++ d, hex := true }

/-- The loop printing octets, e.g. mh2c/frame/ping_frame.cpp:70-80: `every8` after each eighth
octet, a blank after the others. `counter` is the number of octets printed so far. Simplification:
the `uint32_t` counter does not wrap (2^32 is a multiple of 8, so wrapping changes nothing). -/
def hexBytes (every8 : Bytes) : (counter : Nat) → Bytes → Stream → Stream
  | _, [], s => s
  | counter, b :: bs, s =>
      hexBytes every8 (counter + 1) bs
        ((s.hexByte b).text (if (counter + 1) % 8 = 0 then every8 else bstr " "))

end Stream

open Mh2c.Stream

/-- mh2c/frame/frame_header.cpp:64-72 `operator<<`. -/
def FrameHeader.dump (fh : FrameHeader) (s : Stream) : Stream :=
  s.text (bstr "[Frame Header]\n" ++
    bstr "  length    : " ++ Stream.toString fh.length.toNat ++ bstr "\n" ++
    bstr "  type      : " ++ Stream.toString fh.type.toNat ++ bstr "\n" ++
    bstr "  flags     : " ++ Stream.toString fh.flags.toNat ++ bstr "\n" ++
    bstr "  reserved  : " ++ Stream.toString fh.reserved.toNat ++ bstr "\n" ++
    bstr "  stream id : " ++ Stream.toString fh.streamId.toNat ++ bstr "\n")

/-- Title, frame header and payload mark that start every `dump`, for example
mh2c/frame/headers_frame.cpp:182 and mh2c/frame/goaway_frame.cpp:117-119. -/
def dumpStart (title : Bytes) (fh : FrameHeader) (s : Stream) : Stream :=
  (fh.dump (s.text title)).text (bstr "[PAYLOAD]\n")

/-- mh2c/frame/data_frame.cpp:75-80: the data with an indentation after each newline. -/
def indentNewlines (d : Bytes) : Bytes :=
  d.flatMap fun c => if c = 10 then c :: bstr "    " else [c]

/-- mh2c/frame/data_frame.cpp:66-68: `m_length - pad_length - 1`. The first subtraction is on
`uint32_t`, the second on `size_t`; both wrap. -/
def dataLength (length : UInt32) (padLength : UInt8) : Nat :=
  ((length.toNat + 2 ^ 32 - padLength.toNat) % 2 ^ 32 + 2 ^ 64 - 1) % 2 ^ 64

/-- mh2c/frame/data_frame.cpp:61-72 and 83-88: pad length, data and padding. The `string_view` over
the data is read completely, so it must lie inside the payload. -/
def DataFrame.parts [Platform] (f : DataFrame) : Res (UInt8 × Bytes × Bytes) := do
  if isFlagSet f.header.flags flagPadded then
    let padLength ← readAt f.payload 0
    let data ← addressRange f.payload 1 (dataLength f.header.length padLength)
    if padLength.toNat > f.payload.length then .ub .badIterator
    else return (padLength, data, f.payload.drop (f.payload.length - padLength.toNat))
  else
    let data ← addressRange f.payload 0 f.header.length.toNat
    return (0, data, [])

/-- mh2c/frame/data_frame.cpp:57-100 `data_frame::dump`. -/
def DataFrame.dump [Platform] (f : DataFrame) (s : Stream) : Res Stream := do
  let (padLength, data, padding) ← f.parts
  let s := (dumpStart (bstr "=== DATA FRAME ===\n") f.header s).text
    (bstr "  Pad Length: " ++ Stream.toString padLength.toNat ++ bstr "\n" ++
    bstr "  Data      : \n" ++ bstr "    " ++ indentNewlines data ++ bstr "\n" ++
    bstr "  Padding   : \n")
  return (hexBytes (bstr "\n              ") 0 padding s).text (bstr "\n")

/-- mh2c/frame/headers_frame.cpp:199-208, mh2c/frame/push_promise_frame.cpp:164-173,
mh2c/frame/continuation_frame.cpp:106-115: one line per header block entry. -/
def dumpEntry (e : HeaderEntry) (s : Stream) : Res Stream :=
  if e.pfx = .sizeUpdate then do
    let n ← e.getMaxSize
    return s.text (bstr "    " ++ Stream.toString n ++ bstr " (dynamic table size update)\n")
  else do
    let h ← e.getHeader
    return s.text (bstr "    " ++ h.1 ++ bstr ": " ++ h.2 ++ bstr "\n")

/-- The loop over the block in the same three places, for example
mh2c/frame/headers_frame.cpp:198-209. -/
def dumpBlock : HeaderBlock → Stream → Res Stream
  | [], s => .ok s
  | e :: es, s => do dumpBlock es (← dumpEntry e s)

/-- mh2c/frame/headers_frame.cpp:210-227, mh2c/frame/push_promise_frame.cpp:175-192. -/
def dumpPadding (flags : UInt8) (padding : Bytes) (s : Stream) : Stream :=
  let s := s.text (bstr "  Padding:\n")
  if isFlagSet flags flagPadded then
    (hexBytes (bstr "\n    ") 0 padding (s.text (bstr "    "))).text (bstr "\n")
  else s

/-- mh2c/frame/headers_frame.cpp:181-230 `headers_frame::dump`. -/
def HeadersFrame.dump (f : HeadersFrame) (s : Stream) : Res Stream := do
  let s := dumpStart (bstr "=== HEADERS FRAME ===\n") f.header s
  let shown (n : Nat) : Bytes :=
    if isFlagSet f.header.flags flagPriority then Stream.toString n else []
  let s := s.text (bstr "  Exclusive: " ++ shown f.priority.exclusive.toNat ++ bstr "\n" ++
    bstr "  Stream Dependency: " ++ shown f.priority.streamDependency.toNat ++ bstr "\n" ++
    bstr "  Weight: " ++ shown f.priority.weight.toNat ++ bstr "\n" ++ bstr "  Header Block:\n")
  let s ← dumpBlock f.headerBlock s
  return dumpPadding f.header.flags f.padding s

/-- mh2c/frame/priority_frame.cpp:112-121 `priority_frame::dump`. -/
def PriorityFrame.dump (f : PriorityFrame) (s : Stream) : Res Stream :=
  .ok ((dumpStart (bstr "=== PRIORITY FRAME ===\n") f.header s).text
    (bstr "  E: " ++ Stream.toString f.payload.exclusive.toNat ++ bstr "\n" ++
      bstr "  Stream Dependency: " ++ Stream.toString f.payload.streamDependency.toNat ++
      bstr "\n" ++ bstr "  Weight: " ++ Stream.toString f.payload.weight.toNat ++ bstr "\n"))

/-- mh2c/frame/error_codes.h:32-48 `error_codes_str_map`. -/
def errorCodesStrMap : List (Nat × Bytes) := [
  (0, bstr "NO_ERROR"), (1, bstr "PROTOCOL_ERROR"), (2, bstr "INTERNAL_ERRPR"),
  (3, bstr "FLOW_CONTROL_ERROR"), (4, bstr "SETTINGS_TIMEOUT"), (5, bstr "STREAM_CLOSED"),
  (6, bstr "FRAME_SIZE_ERROR"), (7, bstr "REFUSED_STREAM"), (8, bstr "CANCEL"),
  (9, bstr "COMPRESSION_ERROR"), (10, bstr "CONNECT_ERROR"), (11, bstr "ENHANCE_YOUR_CALM"),
  (12, bstr "INADEQUATE_SECURITY"), (13, bstr "HTTP_1_1_REQUIRED"), (14, bstr "UNKNOWN_ERROR")]

/-- `unordered_map::at` (mh2c/frame/rst_stream_frame.cpp:71, mh2c/frame/settings_frame.cpp:92). -/
def mapAt (m : List (Nat × Bytes)) (k : Nat) : Res Bytes :=
  match m.lookup k with
  | some v => .ok v
  | none => .throw .outOfRange

/-- mh2c/frame/rst_stream_frame.cpp:70-77 and mh2c/frame/goaway_frame.cpp:123-131. -/
def dumpErrorCode (code : UInt32) (s : Stream) : Res Stream :=
  if code.toNat < 14 then do
    let name ← mapAt errorCodesStrMap code.toNat
    return s.text (bstr "  Error Code: " ++ name ++ bstr "\n")
  else do
    let name ← mapAt errorCodesStrMap 14
    return s.text (bstr "  Error Code: " ++ name ++ bstr "(" ++ Stream.toString code.toNat ++
      bstr ")\n")

/-- mh2c/frame/rst_stream_frame.cpp:66-79 `rst_stream_frame::dump`. -/
def RstStreamFrame.dump (f : RstStreamFrame) (s : Stream) : Res Stream :=
  dumpErrorCode f.errorCode (dumpStart (bstr "=== RST_STREAM FRAME ===\n") f.header s)

/-- mh2c/frame/settings_frame.cpp:26-37 `sf_parameter_str_map`. -/
def sfParameterStrMap : List (Nat × Bytes) := [
  (1, bstr "SETTINGS_HEADER_TABLE_SIZE"), (2, bstr "SETTINGS_ENABLE_PUSH"),
  (3, bstr "SETTINGS_MAX_CONCURRENT_STREAM"), (4, bstr "SETTINGS_INITIAL_WINDOW_SIZE"),
  (5, bstr "SETTINGS_MAX_FRAME_SIZE"), (6, bstr "SETTINGS_MAX_HEADER_LIST_SIZE"),
  (7, bstr "UNKNOWN")]

/-- mh2c/frame/settings_frame.cpp:87-101: one parameter. The value is printed with `<<`, in the
base the stream happens to be in. -/
def dumpSetting (p : UInt16 × UInt32) (s : Stream) : Res Stream :=
  if p.1.toNat < 1 ∨ p.1.toNat ≥ 7 then do
    let name ← mapAt sfParameterStrMap 7
    return ((s.text (bstr "  " ++ name ++ bstr "(" ++ Stream.toString p.1.toNat ++ bstr "): ")).number
      p.2.toNat).text (bstr "\n")
  else do
    let name ← mapAt sfParameterStrMap p.1.toNat
    return ((s.text (bstr "  " ++ name ++ bstr ": ")).number p.2.toNat).text (bstr "\n")

/-- mh2c/frame/settings_frame.cpp:87-101: the loop. -/
def dumpSettings : SfPayload → Stream → Res Stream
  | [], s => .ok s
  | p :: ps, s => do dumpSettings ps (← dumpSetting p s)

/-- mh2c/frame/settings_frame.cpp:84-102 `settings_frame::dump`. -/
def SettingsFrame.dump (f : SettingsFrame) (s : Stream) : Res Stream :=
  dumpSettings f.payload (dumpStart (bstr "=== SETTINGS FRAME ===\n") f.header s)

/-- mh2c/frame/push_promise_frame.cpp:156-195 `push_promise_frame::dump`. -/
def PushPromiseFrame.dump (f : PushPromiseFrame) (s : Stream) : Res Stream := do
  let s := (dumpStart (bstr "=== PUSH_PROMISE FRAME ===\n") f.header s).text
    (bstr "  R: " ++ Stream.toString f.payload.reserved.toNat ++ bstr "\n" ++
      bstr "  Promised Stream ID: " ++ Stream.toString f.payload.promisedStreamId.toNat ++
      bstr "\n" ++ bstr "  Header Block:\n")
  let s ← dumpBlock f.payload.headerBlock s
  return dumpPadding f.header.flags f.payload.padding s

/-- mh2c/frame/ping_frame.cpp:66-83 `ping_frame::dump`. -/
def PingFrame.dump (f : PingFrame) (s : Stream) : Res Stream :=
  .ok ((hexBytes (bstr "\n") 0 f.opaqueData
    (dumpStart (bstr "=== PING_STREAM FRAME ===\n") f.header s)).text (bstr "\n"))

/-- mh2c/frame/goaway_frame.cpp:134 `out_stream << p` for `const unsigned char* p` pointing at the
octets `d`: a C string. Without a terminating zero the read runs past the buffer. -/
def cString (d : Bytes) : Res Bytes :=
  if 0 ∈ d then .ok (d.takeWhile (· ≠ 0)) else .ub .outOfBounds

/-- mh2c/frame/goaway_frame.cpp:116-138 `goaway_frame::dump`. -/
def GoawayFrame.dump (f : GoawayFrame) (s : Stream) : Res Stream := do
  let s := (dumpStart (bstr "=== GOAWAY FRAME ===\n") f.header s).text
    (bstr "  R: " ++ Stream.toString f.payload.reserved.toNat ++ bstr "\n" ++
      bstr "  Last-Stream-ID: " ++ Stream.toString f.payload.lastStreamId.toNat ++ bstr "\n")
  let s ← dumpErrorCode f.payload.errorCode s
  let s := s.text (bstr "  Additional Debug Data: ")
  let debug ← if f.payload.debugData.isEmpty then .ok [] else cString f.payload.debugData
  return (s.text debug).text (bstr "\n")

/-- mh2c/frame/window_update_frame.cpp:105-113 `window_update_frame::dump`. -/
def WindowUpdateFrame.dump (f : WindowUpdateFrame) (s : Stream) : Res Stream :=
  .ok ((dumpStart (bstr "=== WINDOW_UPDATE FRAME ===\n") f.header s).text
    (bstr "  R: " ++ Stream.toString f.reserved.toNat ++ bstr "\n" ++
      bstr "  Window size Increment: " ++ Stream.toString f.increment.toNat ++ bstr "\n"))

/-- mh2c/frame/continuation_frame.cpp:101-118 `continuation_frame::dump`. -/
def ContinuationFrame.dump (f : ContinuationFrame) (s : Stream) : Res Stream :=
  dumpBlock f.headerBlock
    ((dumpStart (bstr "=== CONTINUATION FRAME ===\n") f.header s).text (bstr "  Header Block:\n"))

/-- mh2c/frame/raw_frame.cpp:33-49 `raw_frame::dump`. -/
def RawFrame.dump (f : RawFrame) (s : Stream) : Res Stream :=
  .ok ((hexBytes (bstr "\n") 0 f.payload
    (dumpStart (bstr "=== GENERIC FRAME (unimplemented) ===\n") f.header s)).text (bstr "\n"))

/-- mh2c/http2_client.cpp:201-204 `operator<<` for frame pointers: virtual `dump`. Simplification
for all `dump`s: the part of the output written before an exception is not described (there is none: no
frame a program can hold makes `dump` throw, see C70). -/
def Frame.dump [Platform] : Frame → Stream → Res Stream
  | .data f => f.dump
  | .headers f => f.dump
  | .priority f => f.dump
  | .rstStream f => f.dump
  | .settings f => f.dump
  | .pushPromise f => f.dump
  | .ping f => f.dump
  | .goaway f => f.dump
  | .windowUpdate f => f.dump
  | .continuation f => f.dump
  | .raw f => f.dump

/-- mh2c/hpack/dynamic_table.cpp:83-87: entries from index `i` on. -/
def dumpTableEntries : (i : Nat) → List Header → Stream → Stream
  | _, [], s => s
  | i, h :: hs, s =>
      dumpTableEntries (i + 1) hs
        (s.text (bstr "[" ++ Stream.toString i ++ bstr "] -> " ++ h.1 ++ bstr ": " ++ h.2 ++
          bstr "\n"))

/-- mh2c/hpack/dynamic_table.cpp:79-89 `operator<<`; `FIRST_INDEX` is 62
(mh2c/hpack/dynamic_table.h:26). -/
def DynamicTable.dump (t : DynamicTable) (s : Stream) : Stream :=
  dumpTableEntries 62 t.entries (s.text (bstr "=== DYNAMIC_TABLE ===\n"))

end Mh2c
