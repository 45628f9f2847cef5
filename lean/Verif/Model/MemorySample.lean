/-
Model of sample/h2_get/sample_h2_get.cpp when memory can run out (`std::bad_alloc`).
-/
import Verif.Model.Memory
import Verif.Model.Sample

namespace Mh2c.Sample

/-- mh2c/http2_client.cpp:201-204 `std::cout << frame`, as in sample/h2_get/sample_h2_get.cpp:32 and 71:
`dump` copies every header and makes a string of every number, in between it prints. If that fails, the first
`cut` octets of the text have been printed. Simplification: `cut` is any number, although memory is only
needed at certain places of the text; the base that the stream is left in is the one it had. -/
def printMem [Platform] (cut : Nat) (f : Frame) (s : State) (m : Memory) : Ended Unit × State × Memory :=
  if m.next.1 then
    let (r, s') := print f s
    (.res r, s', m.next.2)
  else
    match f.dump s.cout with
    | .ok out => (.badAlloc, { s with cout :=
        { s.cout with out := out.out.take (s.cout.out.length + cut) } }, m.next.2)
    | _ => (.badAlloc, s, m.next.2)

/-- sample/h2_get/sample_h2_get.cpp:28-46 `receive_frames`. `std::bad_alloc` is caught and thrown again like
every other exception (line 40); the output of `e.what()` is left out, as in `receiveFrames`. The guard is
the one of `receiveFrames`. -/
def receiveFramesMem [Platform] (cut : Nat) (s : State) (m : Memory) : Ended UInt8 × State × Memory :=
  match s.client.receiveFrameMem m with
  | (.res (.ok f), c, m1) =>
      match printMem cut f ⟨c, s.cout⟩ m1 with
      | (.res (.ok ()), s2, m2) =>
          if isMoreData f.header then
            if s2.client.conn.reads.length < s.client.conn.reads.length then
              receiveFramesMem cut s2 m2
            else (.res .diverge, s2, m2)
          else (.res (.ok f.header.type), s2, m2)
      | (.res (.throw e), s2, m2) => (.res (.throw e), s2, m2)
      | (.res (.ub k), s2, m2) => (.res (.ub k), s2, m2)
      | (.res .diverge, s2, m2) => (.res .diverge, s2, m2)
      | (.badAlloc, s2, m2) => (.badAlloc, s2, m2)
  | (.res (.throw e), c, m1) => (.res (.throw e), ⟨c, s.cout⟩, m1)
  | (.res (.ub k), c, m1) => (.res (.ub k), ⟨c, s.cout⟩, m1)
  | (.res .diverge, c, m1) => (.res .diverge, ⟨c, s.cout⟩, m1)
  | (.badAlloc, c, m1) => (.badAlloc, ⟨c, s.cout⟩, m1)
termination_by s.client.conn.reads.length

/-- A statement of `main` (sample/h2_get/sample_h2_get.cpp:55-106) that only touches the client. -/
def onClientMem {α : Type} (f : Client → Memory → Ended α × Client × Memory) (s : State) (m : Memory) :
    Ended α × State × Memory :=
  let (r, c, m') := f s.client m
  (r, { s with client := c }, m')

/-- Sequencing of the statements of `main` (sample/h2_get/sample_h2_get.cpp:55-107): an exception
ends it, `std::bad_alloc` among them. -/
def andThenMem {α β : Type} (f : State → Memory → Ended α × State × Memory)
    (g : α → State → Memory → Ended β × State × Memory) (s : State) (m : Memory) :
    Ended β × State × Memory :=
  match f s m with
  | (.res (.ok a), s', m') => g a s' m'
  | (.res (.throw e), s', m') => (.res (.throw e), s', m')
  | (.res (.ub k), s', m') => (.res (.ub k), s', m')
  | (.res .diverge, s', m') => (.res .diverge, s', m')
  | (.badAlloc, s', m') => (.badAlloc, s', m')

/-- Making something out of the state (sample/h2_get/sample_h2_get.cpp:61-65 and 80-93): a frame with its
payload. -/
def makeMem {α : Type} (f : State → Res α) (s : State) (m : Memory) : Ended α × State × Memory :=
  if m.next.1 then (.res (f s), s, m.next.2) else (.badAlloc, s, m.next.2)

/-- sample/h2_get/sample_h2_get.cpp:48-110 `main`, from the connected client on. The payloads of the
acknowledgement (line 76) and of GOAWAY (lines 103-105) are empty and need no memory. -/
def mainMem [Platform] (cut : Nat) : State → Memory → Ended Unit × State × Memory :=
  andThenMem (onClientMem Client.sendPrefaceMem) fun _ =>
  andThenMem (makeMem fun _ => .ok settingsToSend) fun sf =>
  andThenMem (onClientMem (·.sendFrameMem sf)) fun _ =>
  andThenMem (onClientMem fun c m => (.res (c.updateRequestTableSize 8192).1,
    (c.updateRequestTableSize 8192).2, m)) fun _ =>
  andThenMem (onClientMem Client.receiveFrameMem) fun f =>
  andThenMem (printMem cut f) fun _ =>
  andThenMem (onClientMem (·.sendFrameMem settingsAck)) fun _ =>
  andThenMem (makeMem fun s => requestFrame s.client.requestTable) fun hf =>
  andThenMem (onClientMem (·.sendFrameMem (.headers hf))) fun _ =>
  andThenMem (makeMem fun _ => .ok hf.headerBlock) fun block =>
  andThenMem (onClientMem (·.updateRequestTableMem block)) fun _ =>
  andThenMem (receiveFramesMem cut) fun last =>
  if last ≠ FrameType.goaway.value then onClientMem (·.sendFrameMem goawayToSend)
  else fun s m => (.res (.ok ()), s, m)

end Mh2c.Sample
