/-
Vocabulary for the formatting of output streams.
-/
import Verif.Model.Format
import Verif.Spec.Text

namespace Mh2c

/-- The formatting a `std::ostream` starts with: decimal, no flag, blanks, no width. -/
def Format.initial : Format := ⟨.dec, false, false, false, 32, 0⟩

/-- The octets that printing a frame adds to a stream with any formatting. -/
def printedOn [Platform] (f : Frame) (s : OStream) : Res Bytes := do
  let s' ← f.print s
  return s'.out.drop s.out.length

/-- The coarse stream describes the fine one: same output, same base, and every other flag as a
stream has it at first (the fill character may have changed). -/
structure Describes (s : Stream) (o : OStream) : Prop where
  out : o.out = s.out
  base : o.fmt.base = if s.hex then .hex else .dec
  uppercase : o.fmt.uppercase = false
  showbase : o.fmt.showbase = false
  left : o.fmt.left = false
  width : o.fmt.width = 0

/-- The same outcome of printing in both models. -/
def SameOutcome : Res OStream → Res Stream → Prop
  | .ok o, .ok s => Describes s o
  | .throw e, .throw e' => e = e'
  | .ub u, .ub u' => u = u'
  | .diverge, .diverge => True
  | _, _ => False

/-- The frame is a SETTINGS frame with a parameter. -/
def HasSettings : Frame → Prop
  | .settings f => f.payload ≠ []
  | _ => False

/-- The upper case form of a letter; other characters are left alone. -/
def upperCase (c : UInt8) : UInt8 := if 97 ≤ c.toNat ∧ c.toNat ≤ 122 then c - 32 else c

/-- How a number is written: the numeral in the base, after the prefix of the base if prefixes are
asked for and the number is not zero, in upper case if that is asked for. -/
def numberOn (fmt : Format) (n : Nat) : Bytes :=
  let pre := if fmt.showbase = false ∨ n = 0 then [] else
    match fmt.base with
    | .dec => []
    | .oct => Rfc.ascii "0"
    | .hex => Rfc.ascii "0x"
  let radix := match fmt.base with
    | .dec => 10
    | .oct => 8
    | .hex => 16
  let t := pre ++ Rfc.numeral radix n
  if fmt.uppercase then t.map upperCase else t

/-- How an octet is written: as a hexadecimal number, filled up with zeros to two characters, before
it or, on a left-adjusted stream, after it. -/
def octetOn (fmt : Format) (b : UInt8) : Bytes :=
  let t := numberOn { fmt with base := .hex } b.toNat
  let zeros := List.replicate (2 - t.length) 48
  if fmt.left then t ++ zeros else zeros ++ t

/-- Octets, each followed by a blank, every eighth by `nl` instead. -/
def octetsOn (nl : Bytes) (fmt : Format) : Nat → Bytes → Bytes
  | _, [] => []
  | i, b :: bs => octetOn fmt b ++ (if 8 ∣ i + 1 then nl else Rfc.ascii " ") ++
      octetsOn nl fmt (i + 1) bs

/-- The padding of HEADERS and PUSH_PROMISE. -/
def paddingOn (fmt : Format) (flags : UInt8) (padding : Bytes) : Bytes :=
  Rfc.ascii "  Padding:\n" ++
    if hasPadded flags then
      Rfc.ascii "    " ++ octetsOn (Rfc.ascii "\n    ") fmt 0 padding ++ Rfc.ascii "\n"
    else []

/-- The payload part of the text of a frame of any class but DATA and GOAWAY, on a stream with this
formatting. Classes not named print neither octets nor numbers; for them the layout is that of C74. -/
def payloadOn (fmt : Format) : Frame → Bytes
  | .headers f =>
      Rfc.unlines ([
        Rfc.ascii "  Exclusive: " ++ Rfc.showsPriority f.header.flags f.priority.exclusive.toNat,
        Rfc.ascii "  Stream Dependency: " ++
          Rfc.showsPriority f.header.flags f.priority.streamDependency.toNat,
        Rfc.ascii "  Weight: " ++ Rfc.showsPriority f.header.flags f.priority.weight.toNat,
        Rfc.ascii "  Header Block:"] ++ f.headerBlock.map Rfc.entryLine) ++
      paddingOn fmt f.header.flags f.padding
  | .pushPromise f =>
      Rfc.unlines ([
        Rfc.ascii "  R: " ++ Rfc.decimal f.payload.reserved.toNat,
        Rfc.ascii "  Promised Stream ID: " ++ Rfc.decimal f.payload.promisedStreamId.toNat,
        Rfc.ascii "  Header Block:"] ++ f.payload.headerBlock.map Rfc.entryLine) ++
      paddingOn fmt f.header.flags f.payload.padding
  | .settings f => Rfc.unlines (f.payload.map fun p =>
      Rfc.ascii "  " ++ Rfc.settingText p.1.toNat ++ Rfc.ascii ": " ++ numberOn fmt p.2.toNat)
  | .ping f => octetsOn (Rfc.ascii "\n") fmt 0 f.opaqueData ++ Rfc.ascii "\n"
  | .raw f => octetsOn (Rfc.ascii "\n") fmt 0 f.payload ++ Rfc.ascii "\n"
  | f => Rfc.payloadText 10 f

/-- The payload part of a DATA frame with this data and padding. -/
def dataOn (fmt : Format) (data padding : Bytes) : Bytes :=
  Rfc.unlines [Rfc.ascii "  Pad Length: " ++ Rfc.decimal padding.length, Rfc.ascii "  Data      : ",
    Rfc.ascii "    " ++ Rfc.indented data, Rfc.ascii "  Padding   : "] ++
  octetsOn (Rfc.ascii "\n              ") fmt 0 padding ++ Rfc.ascii "\n"

end Mh2c
