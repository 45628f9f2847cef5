/-
Model of sample/h2_get/sample_h2_get.cpp.
-/
import Verif.Model.Client
import Verif.Model.Dump

namespace Mh2c.Sample

/-- sample/h2_get/sample_h2_get.cpp:10-26 `is_more_data`. -/
def isMoreData (fh : FrameHeader) : Bool :=
  match frameTypeOf fh.type with
  | some .data => if isFlagSet fh.flags flagEndStream then false else true
  | some .goaway => false
  | _ => true

/-- sample/h2_get/sample_h2_get.cpp:51 and 71: the state of the program, that is the client and
`std::cout`. -/
structure State where
  client : Client
  cout : Stream
  deriving DecidableEq, Repr

/-- sample/h2_get/sample_h2_get.cpp:28-46 `receive_frames`. The pointer returned by `receive_frame`
is never null. Result: the type octet of the last frame. The output of `e.what()` before the
rethrow is in `receiveFramesTold` (`Model/What`). The guard holds always (every received frame takes at least one read);
it is there for Lean's termination checker. -/
def receiveFrames [Platform] (s : State) : Res UInt8 × State :=
  match s.client.receiveFrame with
  | (.ok f, c) =>
      match f.dump s.cout with
      | .ok out =>
          if isMoreData f.header then
            if c.conn.reads.length < s.client.conn.reads.length then
              receiveFrames ⟨c, out⟩
            else (.diverge, ⟨c, out⟩)
          else (.ok f.header.type, ⟨c, out⟩)
      | .throw e => (.throw e, ⟨c, s.cout⟩)
      | .ub k => (.ub k, ⟨c, s.cout⟩)
      | .diverge => (.diverge, ⟨c, s.cout⟩)
  | (.throw e, c) => (.throw e, ⟨c, s.cout⟩)
  | (.ub k, c) => (.ub k, ⟨c, s.cout⟩)
  | (.diverge, c) => (.diverge, ⟨c, s.cout⟩)
termination_by s.client.conn.reads.length

/-- A statement of `main` (sample/h2_get/sample_h2_get.cpp:55-106) that only touches the client. -/
def onClient {α : Type} (f : Client → Res α × Client) (s : State) : Res α × State :=
  let (r, c) := f s.client
  (r, { s with client := c })

/-- Sequencing of the statements of `main` (sample/h2_get/sample_h2_get.cpp:55-107): an exception
ends it. -/
def andThen {α β : Type} (f : State → Res α × State) (g : α → State → Res β × State) (s : State) :
    Res β × State :=
  match f s with
  | (.ok a, s') => g a s'
  | (.throw e, s') => (.throw e, s')
  | (.ub k, s') => (.ub k, s')
  | (.diverge, s') => (.diverge, s')

/-- sample/h2_get/sample_h2_get.cpp:71 `std::cout << frame`. -/
def print [Platform] (f : Frame) (s : State) : Res Unit × State :=
  match f.dump s.cout with
  | .ok out => (.ok (), { s with cout := out })
  | .throw e => (.throw e, s)
  | .ub k => (.ub k, s)
  | .diverge => (.diverge, s)

/-- sample/h2_get/sample_h2_get.cpp:61-65: the SETTINGS frame sent first. -/
def settingsToSend : Frame :=
  .settings (SettingsFrame.new 0 0 (makeSfPayload [(2, 0), (4, 65535), (1, 8192)]))

/-- sample/h2_get/sample_h2_get.cpp:76: the acknowledgement. -/
def settingsAck : Frame := .settings (SettingsFrame.new (makeFrameHeaderFlags flagAck []) 0 [])

/-- sample/h2_get/sample_h2_get.cpp:85-90: the request. -/
def requestHeaders : List Header := [
  (bstr ":method", bstr "GET"), (bstr ":path", bstr "/httpbin/headers"),
  (bstr ":scheme", bstr "https"), (bstr ":authority", bstr "nghttp2.org")]

/-- sample/h2_get/sample_h2_get.cpp:80-93: the HEADERS frame. -/
def requestFrame (table : DynamicTable) : Res HeadersFrame := do
  let block ← makeHeaderBlock .neverIndexed requestHeaders
  HeadersFrame.new (makeFrameHeaderFlags flagEndStream [flagEndHeaders]) 1 block .huffman table

/-- sample/h2_get/sample_h2_get.cpp:103-105: the GOAWAY frame. -/
def goawayToSend : Frame := .goaway (GoawayFrame.new ⟨0, 1, 0, []⟩)

/-- sample/h2_get/sample_h2_get.cpp:48-110 `main`, from the connected client on. -/
def main [Platform] : State → Res Unit × State :=
  andThen (onClient Client.sendConnectionPreface) fun _ =>
  andThen (onClient (·.sendFrame settingsToSend)) fun _ =>
  andThen (onClient (·.updateRequestTableSize 8192)) fun _ =>
  andThen (onClient Client.receiveFrame) fun f =>
  andThen (print f) fun _ =>
  andThen (onClient (·.sendFrame settingsAck)) fun _ =>
  andThen (fun s => (requestFrame s.client.requestTable, s)) fun hf =>
  andThen (onClient (·.sendFrame (.headers hf))) fun _ =>
  andThen (onClient (·.updateRequestDynamicTable hf.headerBlock)) fun _ =>
  andThen receiveFrames fun last =>
  if last ≠ FrameType.goaway.value then onClient (·.sendFrame goawayToSend)
  else fun s => (.ok (), s)

end Mh2c.Sample
