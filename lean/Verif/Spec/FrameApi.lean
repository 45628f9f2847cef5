/-
Vocabulary for the frame properties: parsing one frame from its octets, settings as a map.
-/
import Verif.Model.FrameBuilder
import Verif.Spec.FrameLayout
import Verif.Spec.Wire
import Mathlib.Data.List.Forall2

namespace Mh2c

open Rfc

/-- Parse the header and the payload octets of one frame, as `receive_frame` does. -/
def reparse [Platform] (octets : Bytes) (table : DynamicTable) : Res Frame := do
  let fh ← buildFrameHeader (octets.take 9)
  buildFrame fh (octets.drop 9) table

/-- A `std::map`: keys in strictly increasing order. -/
def IsMap (p : SfPayload) : Prop := p.Pairwise fun a b => a.1 < b.1

/-- RFC 7540 6.2, 6.6: content between pad length and padding, if the PADDED flag is set. -/
def withPadding (flags : UInt8) (content padding : Bytes) : Bytes :=
  if hasPadded flags then padded content padding else content

/-- RFC 7540 6.2: priority fields in front, if the PRIORITY flag is set. -/
def withPriority (flags : UInt8) (p : PriorityOption) (content : Bytes) : Bytes :=
  if hasPriority flags then
    priorityOctets p.exclusive.toNat p.streamDependency.toNat p.weight ++ content
  else content

/-- The same headers and size updates in the same order. A prefix only changes to INDEXED, and only
for headers that are in a table. -/
def SameHeaders (table : DynamicTable) (block decoded : HeaderBlock) : Prop :=
  decoded.map (·.entry) = block.map (·.entry) ∧
  List.Forall₂ (fun e d => d.pfx = e.pfx ∨
    d.pfx = .indexed ∧ ∃ h, e.entry = .header h ∧ InTables h table) block decoded

/-- Every header of the block that is in a table already has the prefix INDEXED. -/
def Settled (table : DynamicTable) (block : HeaderBlock) : Prop :=
  ∀ e ∈ block, ∀ h, e.entry = .header h → InTables h table → e.pfx = .indexed

/-- The pad length of a padded payload does not leave room for the padding: RFC 7540 6.1, 6.2 make
this a connection error. -/
def PaddingTooLong (raw : Bytes) : Prop :=
  raw = [] ∨ ∃ pad rest, raw = pad :: rest ∧ raw.length ≤ pad.toNat

/-- Frames a user can build with the public constructors. -/
inductive Constructed [Platform] : Frame → Prop
  | data (flags : UInt8) (sid : UInt32) (payload : Bytes) :
      Constructed (.data (DataFrame.new flags sid payload))
  | headers (flags : UInt8) (sid : UInt32) (block : HeaderBlock) (mode : EncodeMode)
      (table : DynamicTable) (padding : Bytes) (priority : PriorityOption) (f : HeadersFrame)
      (h : HeadersFrame.new flags sid block mode table padding priority = .ok f) :
      Constructed (.headers f)
  | priority (sid : UInt32) (p : PriorityOption) (f : PriorityFrame)
      (h : PriorityFrame.new sid p = .ok f) : Constructed (.priority f)
  | rstStream (sid code : UInt32) : Constructed (.rstStream (RstStreamFrame.new sid code))
  | settings (flags : UInt8) (sid : UInt32) (payload : SfPayload) (h : IsMap payload) :
      Constructed (.settings (SettingsFrame.new flags sid payload))
  | pushPromise (flags : UInt8) (sid : UInt32) (p : PushPromisePayload) (mode : EncodeMode)
      (table : DynamicTable) (f : PushPromiseFrame)
      (h : PushPromiseFrame.new flags sid p mode table = .ok f) : Constructed (.pushPromise f)
  | ping (flags : UInt8) (data : Bytes) (f : PingFrame) (h : PingFrame.new flags data = .ok f) :
      Constructed (.ping f)
  | goaway (p : GoawayPayload) : Constructed (.goaway (GoawayFrame.new p))
  | windowUpdate (sid : UInt32) (reserved : UInt8) (increment : UInt32) (f : WindowUpdateFrame)
      (h : WindowUpdateFrame.new sid reserved increment = .ok f) : Constructed (.windowUpdate f)
  | continuation (flags : UInt8) (sid : UInt32) (block : HeaderBlock) (mode : EncodeMode)
      (table : DynamicTable) (f : ContinuationFrame)
      (h : ContinuationFrame.new flags sid block mode table = .ok f) :
      Constructed (.continuation f)

/-- The frame type a class of frames stands for; none for frames delivered undecoded. -/
def Frame.kind : Frame → Option UInt8
  | .data _ => some 0
  | .headers _ => some 1
  | .priority _ => some 2
  | .rstStream _ => some 3
  | .settings _ => some 4
  | .pushPromise _ => some 5
  | .ping _ => some 6
  | .goaway _ => some 7
  | .windowUpdate _ => some 8
  | .continuation _ => some 9
  | .raw _ => none

/-- `a == b` compiles (both of the same class, not raw frames) and yields true. -/
inductive ComparesEqual : Frame → Frame → Prop
  | data {a b : DataFrame} (h : a.same b = true) : ComparesEqual (.data a) (.data b)
  | headers {a b : HeadersFrame} (h : a.same b = true) : ComparesEqual (.headers a) (.headers b)
  | priority {a b : PriorityFrame} (h : a.same b = true) : ComparesEqual (.priority a) (.priority b)
  | rstStream {a b : RstStreamFrame} (h : a.same b = true) :
      ComparesEqual (.rstStream a) (.rstStream b)
  | settings {a b : SettingsFrame} (h : a.same b = true) : ComparesEqual (.settings a) (.settings b)
  | pushPromise {a b : PushPromiseFrame} (h : a.same b = true) :
      ComparesEqual (.pushPromise a) (.pushPromise b)
  | ping {a b : PingFrame} (h : a.same b = true) : ComparesEqual (.ping a) (.ping b)
  | goaway {a b : GoawayFrame} (h : a.same b = true) : ComparesEqual (.goaway a) (.goaway b)
  | windowUpdate {a b : WindowUpdateFrame} (h : a.same b = true) :
      ComparesEqual (.windowUpdate a) (.windowUpdate b)
  | continuation {a b : ContinuationFrame} (h : a.same b = true) :
      ComparesEqual (.continuation a) (.continuation b)

/-- A frame without the octets of an encoded header block. -/
def withoutEncoding : Frame → Frame
  | .headers f => .headers { f with encodedPayload := [] }
  | .pushPromise f => .pushPromise { f with encodedPayload := [] }
  | .continuation f => .continuation { f with encodedPayload := [] }
  | f => f

/-- The classes that carry a header block. -/
def HasBlock : Frame → Prop
  | .headers _ | .pushPromise _ | .continuation _ => True
  | _ => False

/-- The same flags without PADDED. -/
def unpad (fh : FrameHeader) : FrameHeader := { fh with flags := fh.flags &&& 0xf7 }

/-- RFC 7540 sections 6.1 to 6.10: the bits of the flags octet that mean something, by frame type. -/
def definedFlags (type : UInt8) : List Nat :=
  match type.toNat with
  | 0 => [0, 3]
  | 1 => [0, 2, 3, 5]
  | 4 => [0]
  | 5 => [2, 3]
  | 6 => [0]
  | 9 => [2]
  | _ => []

/-- A frame with its header left out: class and all other members. -/
def withoutHeader : Frame → Frame
  | .data f => .data { f with header := ⟨0, 0, 0, 0, 0⟩ }
  | .headers f => .headers { f with header := ⟨0, 0, 0, 0, 0⟩ }
  | .priority f => .priority { f with header := ⟨0, 0, 0, 0, 0⟩ }
  | .rstStream f => .rstStream { f with header := ⟨0, 0, 0, 0, 0⟩ }
  | .settings f => .settings { f with header := ⟨0, 0, 0, 0, 0⟩ }
  | .pushPromise f => .pushPromise { f with header := ⟨0, 0, 0, 0, 0⟩ }
  | .ping f => .ping { f with header := ⟨0, 0, 0, 0, 0⟩ }
  | .goaway f => .goaway { f with header := ⟨0, 0, 0, 0, 0⟩ }
  | .windowUpdate f => .windowUpdate { f with header := ⟨0, 0, 0, 0, 0⟩ }
  | .continuation f => .continuation { f with header := ⟨0, 0, 0, 0, 0⟩ }
  | .raw f => .raw { f with header := ⟨0, 0, 0, 0, 0⟩ }

/-- Two calls end alike: both return, with related results, or both fail in the same way. -/
inductive Alike {α : Type} (R : α → α → Prop) : Res α → Res α → Prop
  | ok (x y : α) (h : R x y) : Alike R (.ok x) (.ok y)
  | throw (e : Exc) : Alike R (.throw e) (.throw e)
  | ub (k : Ub) : Alike R (.ub k) (.ub k)
  | diverge : Alike R .diverge .diverge

/-- The frames differ in length, flags and reserved bit of the header at most. -/
def SameButHeader (f g : Frame) : Prop :=
  withoutHeader f = withoutHeader g ∧ f.header.type = g.header.type ∧
    f.header.streamId = g.header.streamId

/-- RFC 7541 6.3: the sizes named by the size updates of a header block. -/
def sizeUpdates (block : HeaderBlock) : List Nat :=
  block.filterMap fun e =>
    match e.pfx, e.entry with
    | .sizeUpdate, .maxSize n => some n
    | _, _ => none

/-- The table sizes a received frame names: by size updates in its header block, or, in SETTINGS, by
SETTINGS_HEADER_TABLE_SIZE (identifier 1). -/
def sizesNamed : Frame → List Nat
  | .headers f => sizeUpdates f.headerBlock
  | .pushPromise f => sizeUpdates f.payload.headerBlock
  | .continuation f => sizeUpdates f.headerBlock
  | .settings f => ((f.payload.lookup 1).map UInt32.toNat).toList
  | _ => []

/-- RFC 7540 6.2: the payload of a HEADERS frame that carries the (part of a) header block. -/
def headersPayload (flags : UInt8) (priority : PriorityOption) (padding part : Bytes) : Bytes :=
  withPadding flags (withPriority flags priority part) padding

/-- Padding and priority fields that go with the flags. -/
structure FitsFlags (flags : UInt8) (priority : PriorityOption) (padding : Bytes) : Prop where
  short : padding.length ≤ 255
  unpadded : ¬ hasPadded flags → padding = []
  exclusive : priority.exclusive.toNat ≤ 1
  dependency : priority.streamDependency.toNat < 2 ^ 31
  noPriority : ¬ hasPriority flags → priority = ⟨0, 0, 0⟩

end Mh2c
