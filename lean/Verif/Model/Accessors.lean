/-
Model of the accessors `get_payload` of the frame classes.
-/
import Verif.Model.Frames

namespace Mh2c

/-- The types `get_payload` returns (mh2c/frame/data_frame.h:30, and the function of this name in
the other frame classes; the lines are at `Frame.getPayload`). -/
inductive Payload
  | octets (b : Bytes)
  | headers (b : HeaderBlock)
  | priority (p : PriorityOption)
  | error (code : UInt32)
  | settings (s : SfPayload)
  | promise (p : PushPromisePayload)
  | goaway (p : GoawayPayload)
  | window (size : UInt32)
  deriving DecidableEq, Repr

/-- `get_payload` of every frame class (it is not virtual: a caller knows the class): mh2c/frame/
mh2c/frame/data_frame.cpp:47, mh2c/frame/headers_frame.cpp:172, mh2c/frame/priority_frame.cpp:90,
mh2c/frame/rst_stream_frame.cpp:53, mh2c/frame/settings_frame.cpp:61,
mh2c/frame/push_promise_frame.cpp:145-147, mh2c/frame/ping_frame.cpp:55,
mh2c/frame/goaway_frame.cpp:86, mh2c/frame/window_update_frame.cpp:86-89,
mh2c/frame/continuation_frame.cpp:90-92, mh2c/frame/raw_frame.cpp:31. -/
def Frame.getPayload : Frame → Payload
  | .data f => .octets f.payload
  | .headers f => .headers f.headerBlock
  | .priority f => .priority f.payload
  | .rstStream f => .error f.errorCode
  | .settings f => .settings f.payload
  | .pushPromise f => .promise f.payload
  | .ping f => .octets f.opaqueData
  | .goaway f => .goaway f.payload
  | .windowUpdate f => .window f.getPayload
  | .continuation f => .headers f.headerBlock
  | .raw f => .octets f.payload

end Mh2c
