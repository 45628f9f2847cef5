/-
Specification of the printed text: numerals, octets, RFC 7540 names, and the layout of each frame.
-/
import Mathlib.Data.Nat.Digits.Defs
import Verif.Spec.Printing

namespace Rfc

open Mh2c

/-- The character of a digit. -/
def digit (d : Nat) : UInt8 := (ascii "0123456789abcdef").getD d 63

/-- The numeral of `n` in base `b`: its digits, most significant first, without leading zeros. -/
def numeral (b n : Nat) : List UInt8 :=
  if n = 0 then ascii "0" else (b.digits n).reverse.map digit

/-- Decimal numeral. -/
abbrev decimal (n : Nat) : List UInt8 := numeral 10 n

/-- An octet as two hexadecimal digits. -/
def octet (b : UInt8) : List UInt8 := [digit (b.toNat / 16), digit (b.toNat % 16)]

/-- Octets, each followed by a blank, every eighth by `nl` instead. -/
def octetsFrom (nl : List UInt8) : (i : Nat) → List UInt8 → List UInt8
  | _, [] => []
  | i, b :: bs => octet b ++ (if 8 ∣ i + 1 then nl else ascii " ") ++ octetsFrom nl (i + 1) bs

/-- RFC 7540 section 7: error codes 0 to 13. -/
def errorNames : List (List UInt8) := [
  ascii "NO_ERROR", ascii "PROTOCOL_ERROR", ascii "INTERNAL_ERROR", ascii "FLOW_CONTROL_ERROR",
  ascii "SETTINGS_TIMEOUT", ascii "STREAM_CLOSED", ascii "FRAME_SIZE_ERROR",
  ascii "REFUSED_STREAM", ascii "CANCEL", ascii "COMPRESSION_ERROR", ascii "CONNECT_ERROR",
  ascii "ENHANCE_YOUR_CALM", ascii "INADEQUATE_SECURITY", ascii "HTTP_1_1_REQUIRED"]

/-- RFC 7540 6.5.2: settings 1 to 6. -/
def settingNames : List (List UInt8) := [
  ascii "SETTINGS_HEADER_TABLE_SIZE", ascii "SETTINGS_ENABLE_PUSH",
  ascii "SETTINGS_MAX_CONCURRENT_STREAMS", ascii "SETTINGS_INITIAL_WINDOW_SIZE",
  ascii "SETTINGS_MAX_FRAME_SIZE", ascii "SETTINGS_MAX_HEADER_LIST_SIZE"]

/-- The RFC name of an error code, or its number. -/
def errorText (code : Nat) : List UInt8 :=
  match errorNames[code]? with
  | some name => name
  | none => ascii "UNKNOWN_ERROR(" ++ decimal code ++ ascii ")"

/-- The RFC name of a setting, or its number. -/
def settingText (id : Nat) : List UInt8 :=
  match id with
  | 0 => ascii "UNKNOWN(0)"
  | k + 1 =>
    match settingNames[k]? with
    | some name => name
    | none => ascii "UNKNOWN(" ++ decimal (k + 1) ++ ascii ")"

/-- Lines of text, each ended by a newline. -/
def unlines (ls : List (List UInt8)) : List UInt8 := ls.flatMap fun l => l ++ [10]

/-- The five fields of a frame header, one per line. -/
def headerLines (fh : FrameHeader) : List (List UInt8) := [
  ascii "[Frame Header]",
  ascii "  length    : " ++ decimal fh.length.toNat,
  ascii "  type      : " ++ decimal fh.type.toNat,
  ascii "  flags     : " ++ decimal fh.flags.toNat,
  ascii "  reserved  : " ++ decimal fh.reserved.toNat,
  ascii "  stream id : " ++ decimal fh.streamId.toNat]

/-- One header block entry. -/
def entryLine : HeaderEntry → List UInt8
  | ⟨_, .header h⟩ => ascii "    " ++ h.1 ++ ascii ": " ++ h.2
  | ⟨_, .maxSize n⟩ => ascii "    " ++ decimal n ++ ascii " (dynamic table size update)"

/-- The padding of HEADERS and PUSH_PROMISE. -/
def paddingText (flags : UInt8) (padding : List UInt8) : List UInt8 :=
  ascii "  Padding:\n" ++
    if hasPadded flags then ascii "    " ++ octetsFrom (ascii "\n    ") 0 padding ++ ascii "\n"
    else []

/-- RFC 7540 6.2: the PRIORITY flag is bit 5. -/
def showsPriority (flags : UInt8) (n : Nat) : List UInt8 :=
  if flags.toNat.testBit 5 then decimal n else []

/-- The payload part of the text, for every class but DATA and GOAWAY, in base `b` where the
stream's base matters. -/
def payloadText (b : Nat) : Frame → List UInt8
  | .data _ => []
  | .goaway _ => []
  | .headers f =>
      unlines ([
        ascii "  Exclusive: " ++ showsPriority f.header.flags f.priority.exclusive.toNat,
        ascii "  Stream Dependency: " ++
          showsPriority f.header.flags f.priority.streamDependency.toNat,
        ascii "  Weight: " ++ showsPriority f.header.flags f.priority.weight.toNat,
        ascii "  Header Block:"] ++ f.headerBlock.map entryLine) ++
      paddingText f.header.flags f.padding
  | .priority f => unlines [
      ascii "  E: " ++ decimal f.payload.exclusive.toNat,
      ascii "  Stream Dependency: " ++ decimal f.payload.streamDependency.toNat,
      ascii "  Weight: " ++ decimal f.payload.weight.toNat]
  | .rstStream f => unlines [ascii "  Error Code: " ++ errorText f.errorCode.toNat]
  | .settings f => unlines (f.payload.map fun p =>
      ascii "  " ++ settingText p.1.toNat ++ ascii ": " ++ numeral b p.2.toNat)
  | .pushPromise f =>
      unlines ([
        ascii "  R: " ++ decimal f.payload.reserved.toNat,
        ascii "  Promised Stream ID: " ++ decimal f.payload.promisedStreamId.toNat,
        ascii "  Header Block:"] ++ f.payload.headerBlock.map entryLine) ++
      paddingText f.header.flags f.payload.padding
  | .ping f => octetsFrom (ascii "\n") 0 f.opaqueData ++ ascii "\n"
  | .windowUpdate f => unlines [
      ascii "  R: " ++ decimal f.reserved.toNat,
      ascii "  Window size Increment: " ++ decimal f.increment.toNat]
  | .continuation f => unlines (ascii "  Header Block:" :: f.headerBlock.map entryLine)
  | .raw f => octetsFrom (ascii "\n") 0 f.payload ++ ascii "\n"

/-- The first line. -/
def title : Frame → List UInt8
  | .data _ => ascii "=== DATA FRAME ==="
  | .headers _ => ascii "=== HEADERS FRAME ==="
  | .priority _ => ascii "=== PRIORITY FRAME ==="
  | .rstStream _ => ascii "=== RST_STREAM FRAME ==="
  | .settings _ => ascii "=== SETTINGS FRAME ==="
  | .pushPromise _ => ascii "=== PUSH_PROMISE FRAME ==="
  | .ping _ => ascii "=== PING_STREAM FRAME ==="
  | .goaway _ => ascii "=== GOAWAY FRAME ==="
  | .windowUpdate _ => ascii "=== WINDOW_UPDATE FRAME ==="
  | .continuation _ => ascii "=== CONTINUATION FRAME ==="
  | .raw _ => ascii "=== GENERIC FRAME (unimplemented) ==="

/-- Title, header lines and payload mark. -/
def startText (f : Frame) : List UInt8 :=
  unlines (title f :: headerLines f.header ++ [ascii "[PAYLOAD]"])

/-- Data with every line after the first indented. -/
def indented (d : List UInt8) : List UInt8 :=
  d.flatMap fun c => if c = 10 then ascii "\n    " else [c]

/-- The payload part of a DATA frame with this data and padding. -/
def dataText (data padding : List UInt8) : List UInt8 :=
  unlines [ascii "  Pad Length: " ++ decimal padding.length, ascii "  Data      : ",
    ascii "    " ++ indented data, ascii "  Padding   : "] ++
  octetsFrom (ascii "\n              ") 0 padding ++ ascii "\n"

/-- The payload part of a GOAWAY frame of whose debug data `shown` is shown. -/
def goawayText (p : GoawayPayload) (shown : List UInt8) : List UInt8 :=
  unlines [ascii "  R: " ++ decimal p.reserved.toNat,
    ascii "  Last-Stream-ID: " ++ decimal p.lastStreamId.toNat,
    ascii "  Error Code: " ++ errorText p.errorCode.toNat,
    ascii "  Additional Debug Data: " ++ shown]

end Rfc

namespace Mh2c

/-- The names the library misprints (C75) do not occur: error code 2, setting 3. -/
def NoMisprint : Frame → Prop
  | .rstStream f => f.errorCode ≠ 2
  | .goaway f => f.payload.errorCode ≠ 2
  | .settings f => ∀ p ∈ f.payload, p.1 ≠ 3
  | _ => True

/-- The frames the text of which leaves nothing out: every class but those with a header block and
GOAWAY; DATA frames as they are received. -/
def ShownInFull : Frame → Prop
  | .data f => f = DataFrame.new f.header.flags f.header.streamId f.payload ∧ f.payload.length < 2 ^ 24
  | .headers _ => False
  | .pushPromise _ => False
  | .continuation _ => False
  | .goaway _ => False
  | _ => True

/-- A header block that prints unambiguously: no blank or newline in a name, no newline in a value. -/
def CleanBlock (es : HeaderBlock) : Prop :=
  ∀ e ∈ es, ∀ h, e.entry = .header h → 32 ∉ h.1 ∧ 10 ∉ h.1 ∧ 10 ∉ h.2

end Mh2c
