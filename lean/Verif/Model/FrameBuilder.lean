/-
Model of mh2c/frame/frame_builder.{h,cpp}.
-/
import Verif.Model.Frames

namespace Mh2c

/-- mh2c/frame/frame_builder.cpp:50-54 `build_data_frame`: keeps flags and stream id only. -/
def buildDataFrame (fh : FrameHeader) (raw : Bytes) : Res Frame :=
  .ok (.data (DataFrame.new fh.flags fh.streamId raw))

/-- mh2c/frame/frame_builder.cpp:56-66 `build_headers_frame`: any exception while decoding gives a
raw frame. -/
def buildHeadersFrame [Platform] (fh : FrameHeader) (raw : Bytes) (table : DynamicTable) :
    Res Frame :=
  match HeadersFrame.ofRaw fh raw table with
  | .ok f => .ok (.headers f)
  | .throw _ => .ok (.raw ⟨fh, raw⟩)
  | .ub k => .ub k
  | .diverge => .diverge

/-- mh2c/frame/frame_builder.cpp:98-111 `build_settings_frame`: keeps flags and stream id only. -/
def buildSettingsFrame (fh : FrameHeader) (raw : Bytes) : Res Frame := do
  let payload ← parseSettings raw []
  return .settings (SettingsFrame.new fh.flags fh.streamId payload)

/-- mh2c/frame/frame_builder.cpp:138-143 `build_frame` with the map of lines 123-134 and the
one-line builders of lines 44-48, 68-96, 113-117. `builder_func_map.at` throws for other types. -/
def buildFrame [Platform] (fh : FrameHeader) (raw : Bytes) (table : DynamicTable) : Res Frame :=
  match frameTypeOf fh.type with
  | some .data => buildDataFrame fh raw
  | some .headers => buildHeadersFrame fh raw table
  | some .priority => do return .priority (← PriorityFrame.ofRaw fh raw)
  | some .rstStream => do return .rstStream (← RstStreamFrame.ofRaw fh raw)
  | some .settings => buildSettingsFrame fh raw
  | some .pushPromise => do return .pushPromise (← PushPromiseFrame.ofRaw fh raw table)
  | some .ping => do return .ping (← PingFrame.ofRaw fh raw)
  | some .goaway => do return .goaway (← GoawayFrame.ofRaw fh raw)
  | some .windowUpdate => do return .windowUpdate (← WindowUpdateFrame.ofRaw fh raw)
  | some .continuation => do return .continuation (← ContinuationFrame.ofRaw fh raw table)
  | none => .throw .outOfRange

end Mh2c
