/-
A finer model of printing. `Verif.Model.Dump` keeps of a stream's formatting only the number base
and takes every other flag to be as a fresh stream has it. Here a stream carries all the formatting
that decides what the library's insertions write, and every `dump` is the list of its insertions.
`Verif.Proofs.Format` shows that the two models agree on every stream that `Verif.Model.Dump`
describes.
-/
import Verif.Model.Dump

namespace Mh2c

/-- `std::ios_base::basefield`, set by `std::hex` in mh2c/frame/ping_frame.cpp:73 and read by
mh2c/frame/settings_frame.cpp:93-100. -/
inductive Base
  | dec | oct | hex
  deriving DecidableEq, Repr

/-- The formatting of a `std::ostream` (the parameter of `dump`, mh2c/frame/i_frame.h:23) that the
insertions of the library read. Simplifications: `std::internal` is not distinguished from
`std::right` (no insertion of the library pads a number that has a base prefix), the locale is the
classic one, the width is not negative. -/
structure Format where
  base : Base
  uppercase : Bool
  showbase : Bool
  left : Bool
  fill : UInt8
  width : Nat
  deriving DecidableEq, Repr

/-- `std::ostream` (the parameter of `dump`, mh2c/frame/i_frame.h:23): octets written so far and the
formatting in force. Simplification: the stream never fails. -/
structure OStream where
  out : Bytes
  fmt : Format
  deriving DecidableEq, Repr

/-- One insertion `out_stream << x`, for example those of mh2c/frame/ping_frame.cpp:67-81: a
character or string, an unsigned integer, or one of the three manipulators the library uses. -/
inductive Out
  | text (t : Bytes)
  | number (n : Nat)
  | hex
  | setw (n : Nat)
  | setfill (c : UInt8)
  deriving DecidableEq, Repr

/-- Padding to the width in force, for example in mh2c/frame/ping_frame.cpp:73-74. -/
def Format.pad (fmt : Format) (t : Bytes) : Bytes :=
  let p := List.replicate (fmt.width - t.length) fmt.fill
  if fmt.left then t ++ p else p ++ t

/-- The upper case form of a digit (`std::uppercase`); digits are written in
mh2c/frame/ping_frame.cpp:74 and mh2c/frame/settings_frame.cpp:94-100. -/
def upperDigit (c : UInt8) : UInt8 := if 97 ≤ c ∧ c ≤ 122 then c - 32 else c

/-- The digits of an integer with its base prefix, before padding
(mh2c/frame/ping_frame.cpp:74, mh2c/frame/settings_frame.cpp:94 and 100). -/
def Format.digits (fmt : Format) (n : Nat) : Bytes :=
  let t := match fmt.base with
    | .dec => Stream.digits 10 n
    | .oct => (if fmt.showbase ∧ n ≠ 0 then bstr "0" else []) ++ Stream.digits 8 n
    | .hex => (if fmt.showbase ∧ n ≠ 0 then bstr "0x" else []) ++ Stream.digits 16 n
  if fmt.uppercase then t.map upperDigit else t

/-- One insertion, for example in mh2c/frame/ping_frame.cpp:73-74. Strings, characters and integers
are padded to the width, which is then reset to 0; the manipulators only change the formatting. -/
def OStream.put (s : OStream) : Out → OStream
  | .text t => ⟨s.out ++ s.fmt.pad t, { s.fmt with width := 0 }⟩
  | .number n => ⟨s.out ++ s.fmt.pad (s.fmt.digits n), { s.fmt with width := 0 }⟩
  | .hex => { s with fmt := { s.fmt with base := .hex } }
  | .setw n => { s with fmt := { s.fmt with width := n } }
  | .setfill c => { s with fmt := { s.fmt with fill := c } }

/-- Insertions one after the other, for example those of mh2c/frame/ping_frame.cpp:67-81. -/
def OStream.puts (s : OStream) (l : List Out) : OStream := l.foldl OStream.put s

open Out

/-- mh2c/frame/frame_header.cpp:64-72 `operator<<`. -/
def FrameHeader.outs (fh : FrameHeader) : List Out :=
  [text (bstr "[Frame Header]\n"),
    text (bstr "  length    : "), text (Stream.toString fh.length.toNat), text (bstr "\n"),
    text (bstr "  type      : "), text (Stream.toString fh.type.toNat), text (bstr "\n"),
    text (bstr "  flags     : "), text (Stream.toString fh.flags.toNat), text (bstr "\n"),
    text (bstr "  reserved  : "), text (Stream.toString fh.reserved.toNat), text (bstr "\n"),
    text (bstr "  stream id : "), text (Stream.toString fh.streamId.toNat), text (bstr "\n")]

/-- Title, frame header and payload mark that start every `dump`, for example
mh2c/frame/headers_frame.cpp:182 and mh2c/frame/goaway_frame.cpp:117-119. -/
def startOuts (title : Bytes) (fh : FrameHeader) : List Out :=
  text title :: fh.outs ++ [text (bstr "[PAYLOAD]\n")]

/-- The loop printing octets, mh2c/frame/ping_frame.cpp:71-80, mh2c/frame/raw_frame.cpp:38-47,
mh2c/frame/data_frame.cpp:87-96, mh2c/frame/headers_frame.cpp:215-225 and
mh2c/frame/push_promise_frame.cpp:180-190: `every8` are the insertions after each eighth octet.
Simplification: the `uint32_t` counter does not wrap (2^32 is a multiple of 8, so wrapping changes
nothing). -/
def octetOuts (every8 : List Out) : (counter : Nat) → Bytes → List Out
  | _, [] => []
  | counter, b :: bs =>
      [hex, setw 2, setfill 48, number b.toNat] ++
        (if (counter + 1) % 8 = 0 then every8 else [text (bstr " ")]) ++
        octetOuts every8 (counter + 1) bs

/-- mh2c/frame/data_frame.cpp:75-80: the data, character by character. -/
def dataOuts (d : Bytes) : List Out :=
  d.flatMap fun c => if c = 10 then [text [c], text (bstr "    ")] else [text [c]]

/-- mh2c/frame/data_frame.cpp:57-100 `data_frame::dump`. -/
def DataFrame.outs [Platform] (f : DataFrame) : Res (List Out) := do
  let (padLength, data, padding) ← f.parts
  return startOuts (bstr "=== DATA FRAME ===\n") f.header ++
    [text (bstr "  Pad Length: "), text (Stream.toString padLength.toNat), text (bstr "\n"),
      text (bstr "  Data      : \n"), text (bstr "    ")] ++ dataOuts data ++
    [text (bstr "\n"), text (bstr "  Padding   : \n")] ++
    octetOuts [text (bstr "\n              ")] 0 padding ++ [text (bstr "\n")]

/-- mh2c/frame/headers_frame.cpp:199-208, mh2c/frame/push_promise_frame.cpp:164-173,
mh2c/frame/continuation_frame.cpp:106-115: one line per header block entry. -/
def entryOuts (e : HeaderEntry) : Res (List Out) :=
  if e.pfx = .sizeUpdate then do
    let n ← e.getMaxSize
    return [text (bstr "    "), text (Stream.toString n), text (bstr " (dynamic table size update)\n")]
  else do
    let h ← e.getHeader
    return [text (bstr "    "), text h.1, text (bstr ": "), text h.2, text (bstr "\n")]

/-- The loop over the block in the same three places, for example
mh2c/frame/headers_frame.cpp:198-209. -/
def blockOuts : HeaderBlock → Res (List Out)
  | [] => .ok []
  | e :: es => do
      let l ← entryOuts e
      let ls ← blockOuts es
      return l ++ ls

/-- mh2c/frame/headers_frame.cpp:210-227, mh2c/frame/push_promise_frame.cpp:175-192. -/
def paddingOuts (flags : UInt8) (padding : Bytes) : List Out :=
  text (bstr "  Padding:\n") ::
    if isFlagSet flags flagPadded then
      text (bstr "    ") :: octetOuts [text (bstr "\n"), text (bstr "    ")] 0 padding ++
        [text (bstr "\n")]
    else []

/-- mh2c/frame/headers_frame.cpp:181-230 `headers_frame::dump`. -/
def HeadersFrame.outs (f : HeadersFrame) : Res (List Out) := do
  let shown (n : Nat) : Bytes :=
    if isFlagSet f.header.flags flagPriority then Stream.toString n else []
  let block ← blockOuts f.headerBlock
  return startOuts (bstr "=== HEADERS FRAME ===\n") f.header ++
    [text (bstr "  Exclusive: "), text (shown f.priority.exclusive.toNat), text (bstr "\n"),
      text (bstr "  Stream Dependency: "), text (shown f.priority.streamDependency.toNat),
      text (bstr "\n"),
      text (bstr "  Weight: "), text (shown f.priority.weight.toNat), text (bstr "\n"),
      text (bstr "  Header Block:\n")] ++ block ++ paddingOuts f.header.flags f.padding

/-- mh2c/frame/priority_frame.cpp:112-121 `priority_frame::dump`. -/
def PriorityFrame.outs (f : PriorityFrame) : List Out :=
  startOuts (bstr "=== PRIORITY FRAME ===\n") f.header ++
    [text (bstr "  E: "), text (Stream.toString f.payload.exclusive.toNat), text (bstr "\n"),
      text (bstr "  Stream Dependency: "),
      text (Stream.toString f.payload.streamDependency.toNat), text (bstr "\n"),
      text (bstr "  Weight: "), text (Stream.toString f.payload.weight.toNat), text (bstr "\n")]

/-- mh2c/frame/rst_stream_frame.cpp:70-77 and mh2c/frame/goaway_frame.cpp:123-131. -/
def errorCodeOuts (code : UInt32) : Res (List Out) :=
  if code.toNat < 14 then do
    let name ← mapAt errorCodesStrMap code.toNat
    return [text (bstr "  Error Code: "), text name, text (bstr "\n")]
  else do
    let name ← mapAt errorCodesStrMap 14
    return [text (bstr "  Error Code: "), text name, text (bstr "("),
      text (Stream.toString code.toNat), text (bstr ")\n")]

/-- mh2c/frame/rst_stream_frame.cpp:66-79 `rst_stream_frame::dump`. -/
def RstStreamFrame.outs (f : RstStreamFrame) : Res (List Out) := do
  let code ← errorCodeOuts f.errorCode
  return startOuts (bstr "=== RST_STREAM FRAME ===\n") f.header ++ code

/-- mh2c/frame/settings_frame.cpp:87-101: one parameter. -/
def settingOuts (p : UInt16 × UInt32) : Res (List Out) :=
  if p.1.toNat < 1 ∨ p.1.toNat ≥ 7 then do
    let name ← mapAt sfParameterStrMap 7
    return [text (bstr "  "), text name, text (bstr "("), text (Stream.toString p.1.toNat),
      text (bstr "): "), number p.2.toNat, text (bstr "\n")]
  else do
    let name ← mapAt sfParameterStrMap p.1.toNat
    return [text (bstr "  "), text name, text (bstr ": "), number p.2.toNat, text (bstr "\n")]

/-- mh2c/frame/settings_frame.cpp:87-101: the loop. -/
def settingsOuts : SfPayload → Res (List Out)
  | [] => .ok []
  | p :: ps => do
      let l ← settingOuts p
      let ls ← settingsOuts ps
      return l ++ ls

/-- mh2c/frame/settings_frame.cpp:84-102 `settings_frame::dump`. -/
def SettingsFrame.outs (f : SettingsFrame) : Res (List Out) := do
  let l ← settingsOuts f.payload
  return startOuts (bstr "=== SETTINGS FRAME ===\n") f.header ++ l

/-- mh2c/frame/push_promise_frame.cpp:156-195 `push_promise_frame::dump`. -/
def PushPromiseFrame.outs (f : PushPromiseFrame) : Res (List Out) := do
  let block ← blockOuts f.payload.headerBlock
  return startOuts (bstr "=== PUSH_PROMISE FRAME ===\n") f.header ++
    [text (bstr "  R: "), text (Stream.toString f.payload.reserved.toNat), text (bstr "\n"),
      text (bstr "  Promised Stream ID: "),
      text (Stream.toString f.payload.promisedStreamId.toNat), text (bstr "\n"),
      text (bstr "  Header Block:\n")] ++ block ++ paddingOuts f.header.flags f.payload.padding

/-- mh2c/frame/ping_frame.cpp:66-83 `ping_frame::dump`. -/
def PingFrame.outs (f : PingFrame) : List Out :=
  startOuts (bstr "=== PING_STREAM FRAME ===\n") f.header ++
    octetOuts [text (bstr "\n")] 0 f.opaqueData ++ [text (bstr "\n")]

/-- mh2c/frame/goaway_frame.cpp:133-135: the debug data, if there is any. -/
def debugOuts (d : Bytes) : Res (List Out) :=
  if d.isEmpty then .ok []
  else do
    let t ← cString d
    return [text t]

/-- mh2c/frame/goaway_frame.cpp:116-138 `goaway_frame::dump`. -/
def GoawayFrame.outs (f : GoawayFrame) : Res (List Out) := do
  let code ← errorCodeOuts f.payload.errorCode
  let debug ← debugOuts f.payload.debugData
  return startOuts (bstr "=== GOAWAY FRAME ===\n") f.header ++
    [text (bstr "  R: "), text (Stream.toString f.payload.reserved.toNat), text (bstr "\n"),
      text (bstr "  Last-Stream-ID: "), text (Stream.toString f.payload.lastStreamId.toNat),
      text (bstr "\n")] ++ code ++ text (bstr "  Additional Debug Data: ") :: debug ++
    [text (bstr "\n")]

/-- mh2c/frame/window_update_frame.cpp:105-113 `window_update_frame::dump`. -/
def WindowUpdateFrame.outs (f : WindowUpdateFrame) : List Out :=
  startOuts (bstr "=== WINDOW_UPDATE FRAME ===\n") f.header ++
    [text (bstr "  R: "), text (Stream.toString f.reserved.toNat), text (bstr "\n"),
      text (bstr "  Window size Increment: "), text (Stream.toString f.increment.toNat),
      text (bstr "\n")]

/-- mh2c/frame/continuation_frame.cpp:101-118 `continuation_frame::dump`. -/
def ContinuationFrame.outs (f : ContinuationFrame) : Res (List Out) := do
  let block ← blockOuts f.headerBlock
  return startOuts (bstr "=== CONTINUATION FRAME ===\n") f.header ++
    text (bstr "  Header Block:\n") :: block

/-- mh2c/frame/raw_frame.cpp:33-49 `raw_frame::dump`. -/
def RawFrame.outs (f : RawFrame) : List Out :=
  startOuts (bstr "=== GENERIC FRAME (unimplemented) ===\n") f.header ++
    octetOuts [text (bstr "\n")] 0 f.payload ++ [text (bstr "\n")]

/-- mh2c/http2_client.cpp:201-204 `operator<<` for frame pointers: virtual `dump`, as the list of
insertions it makes. -/
def Frame.outs [Platform] : Frame → Res (List Out)
  | .data f => f.outs
  | .headers f => f.outs
  | .priority f => .ok f.outs
  | .rstStream f => f.outs
  | .settings f => f.outs
  | .pushPromise f => f.outs
  | .ping f => .ok f.outs
  | .goaway f => f.outs
  | .windowUpdate f => .ok f.outs
  | .continuation f => f.outs
  | .raw f => .ok f.outs

/-- mh2c/http2_client.cpp:201-204 `operator<<` for frame pointers on a stream with any formatting.
Simplification: as in `Frame.dump`, what is written before undefined behaviour is not described. -/
def Frame.print [Platform] (f : Frame) (s : OStream) : Res OStream := do
  let l ← f.outs
  return s.puts l

/-- mh2c/hpack/dynamic_table.cpp:83-87: entries from index `i` on. -/
def tableEntryOuts : (i : Nat) → List Header → List Out
  | _, [] => []
  | i, h :: hs =>
      [text (bstr "["), text (Stream.toString i), text (bstr "] -> "), text h.1, text (bstr ": "),
        text h.2, text (bstr "\n")] ++ tableEntryOuts (i + 1) hs

/-- mh2c/hpack/dynamic_table.cpp:79-89 `operator<<` on a stream with any formatting; `FIRST_INDEX` is
62 (mh2c/hpack/dynamic_table.h:26). -/
def DynamicTable.print (t : DynamicTable) (s : OStream) : OStream :=
  s.puts (text (bstr "=== DYNAMIC_TABLE ===\n") :: tableEntryOuts 62 t.entries)

end Mh2c
