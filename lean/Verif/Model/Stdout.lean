/-
Model of what the library writes to `std::cout` by itself (mh2c/frame/frame_builder.cpp:62, the only
place). The printing of frames a program asks for is in `Dump`.
-/
import Verif.Model.Client

namespace Mh2c

/-- mh2c/frame/frame_builder.cpp:56-66 `build_headers_frame`: how many messages it writes to
`std::cout`. The text `e.what()` is in `Model/What`. -/
def buildHeadersMessages [Platform] (fh : FrameHeader) (raw : Bytes) (table : DynamicTable) : Nat :=
  match HeadersFrame.ofRaw fh raw table with
  | .throw _ => 1
  | _ => 0

/-- mh2c/frame/frame_builder.cpp:138-143 `build_frame`: how many messages it writes to
`std::cout`. -/
def buildFrameMessages [Platform] (fh : FrameHeader) (raw : Bytes) (table : DynamicTable) : Nat :=
  match frameTypeOf fh.type with
  | some .headers => buildHeadersMessages fh raw table
  | _ => 0

/-- mh2c/http2_client.cpp:132-146 `receive_frame`: how many messages it writes to `std::cout`. -/
def Client.receiveFrameMessages [Platform] (c : Client) : Nat :=
  match c.receiveRawData 9 with
  | (.ok rawFh, c1) =>
      match buildFrameHeader rawFh with
      | .ok fh =>
          if fh.length.toNat > 0 then
            match c1.receiveRawData fh.length.toNat with
            | (.ok raw, c2) => buildFrameMessages fh raw c2.responseTable
            | _ => 0
          else buildFrameMessages fh [] c1.responseTable
      | _ => 0
  | _ => 0

end Mh2c
