/-
Vocabulary for a log of frames printed one after the other.
-/
import Verif.Spec.Format

namespace Mh2c

/-- Printing frames one after the other on a stream with any formatting, and the text each of them
adds. -/
inductive Logs [Platform] : List Frame → OStream → List Bytes → OStream → Prop
  | nil (s : OStream) : Logs [] s [] s
  | cons (f : Frame) (fs : List Frame) (s s1 s' : OStream) (t : Bytes) (ts : List Bytes)
      (h1 : f.print s = .ok s1) (ht : s1.out = s.out ++ t) (h : Logs fs s1 ts s') :
      Logs (f :: fs) s (t :: ts) s'

/-- After these octets a line starts. -/
def LineStarts (before : Bytes) : Prop := before = [] ∨ before.getLast? = some 10

/-- No line of this text but the first starts with an equals sign. -/
def NoTitleIn (t : Bytes) : Prop := ¬ [10, 61] <:+: t

/-- The names and values of a header block have no line that starts with an equals sign. -/
def NoTitleInBlock (es : HeaderBlock) : Prop :=
  ∀ e ∈ es, ∀ h, e.entry = .header h → NoTitleIn h.1 ∧ NoTitleIn h.2

/-- What the peer can put into the text of the frame as it is has no line that starts with an equals
sign: header names, header values, debug data. -/
def NoForgedTitle : Frame → Prop
  | .headers f => NoTitleInBlock f.headerBlock
  | .pushPromise f => NoTitleInBlock f.payload.headerBlock
  | .continuation f => NoTitleInBlock f.headerBlock
  | .goaway f => NoTitleIn f.payload.debugData
  | _ => True

/-- The frames whose text can be read back: those shown in full; those with a header block without
newlines, or blanks in names; GOAWAY with debug data that has no line starting with an equals sign. -/
def Readable : Frame → Prop
  | .headers f => CleanBlock f.headerBlock
  | .pushPromise f => CleanBlock f.payload.headerBlock
  | .continuation f => CleanBlock f.headerBlock
  | .goaway f => NoTitleIn f.payload.debugData
  | f => ShownInFull f

/-- The frames agree in everything that is printed: for a header block the names, values and table
sizes, for the priority fields and padding if the flags say they are there, for GOAWAY the debug data
up to its first zero octet; in all other classes the frames are the same. -/
def SameShown : Frame → Frame → Prop
  | .headers f, .headers g => f.header = g.header ∧
      f.headerBlock.map (·.entry) = g.headerBlock.map (·.entry) ∧
      (f.header.flags.toNat.testBit 5 → f.priority = g.priority) ∧
      (hasPadded f.header.flags → f.padding = g.padding)
  | .pushPromise f, .pushPromise g => f.header = g.header ∧
      f.payload.reserved = g.payload.reserved ∧
      f.payload.promisedStreamId = g.payload.promisedStreamId ∧
      f.payload.headerBlock.map (·.entry) = g.payload.headerBlock.map (·.entry) ∧
      (hasPadded f.header.flags → f.payload.padding = g.payload.padding)
  | .continuation f, .continuation g => f.header = g.header ∧
      f.headerBlock.map (·.entry) = g.headerBlock.map (·.entry)
  | .goaway f, .goaway g => f.header = g.header ∧ f.payload.reserved = g.payload.reserved ∧
      f.payload.lastStreamId = g.payload.lastStreamId ∧ f.payload.errorCode = g.payload.errorCode ∧
      f.payload.debugData.takeWhile (· ≠ 0) = g.payload.debugData.takeWhile (· ≠ 0)
  | f, g => f = g

end Mh2c
