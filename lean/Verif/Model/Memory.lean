/-
Model of the calls of http2_client when memory can run out (`std::bad_alloc`).
-/
import Verif.Model.Client

namespace Mh2c

/-- How a call ends when memory can run out: as in the model without, or with `std::bad_alloc`. -/
inductive Ended (α : Type)
  | res (r : Res α)
  | badAlloc
  deriving DecidableEq, Repr

/-- Whether there is memory, one answer for every part of a call that allocates and changes nothing
that outlives it; after the last answer there is always enough. Simplification: a part has many
allocations, any of which may fail; as the part changes nothing else it does not matter which. -/
abbrev Memory := List Bool

/-- The next answer. -/
def Memory.next : Memory → Bool × Memory
  | [] => (true, [])
  | b :: m => (b, m)

/-- An exception of the library is thrown with a text that is put together before
(mh2c/ssl/ssl_connection.cpp:111-113 and 128-130, mh2c/hpack/header_type.cpp:47 and 54): that
allocates, and `std::bad_alloc` is thrown in its place. -/
def raise {α : Type} (r : Res α) (m : Memory) : Ended α × Memory :=
  match r with
  | .throw e => if m.next.1 then (.res (.throw e), m.next.2) else (.badAlloc, m.next.2)
  | r => (.res r, m)

/-- mh2c/hpack/dynamic_table.cpp:37-45 `push`. The size is recorded (line 40) before the copy of the
header is inserted (line 42). Simplification: an insertion that fails leaves the vector as it was. That
is so in libstdc++, and wherever a larger block of memory is needed; the standard only promises some
valid entries. -/
def DynamicTable.pushMem (t : DynamicTable) (h : Header) (enough : Bool) :
    Ended Unit × DynamicTable :=
  match DynamicTable.resize t.entries (t.tableSize + DynamicTable.headerSize h) t.maxTableSize with
  | .ok (entries, size) =>
      if enough then (.res (.ok ()), { t with entries := h :: entries, tableSize := size })
      else (.badAlloc, { t with entries := entries, tableSize := size })
  | .throw e => (.res (.throw e), t)
  | .ub k => (.res (.ub k), t)
  | .diverge => (.res .diverge, t)

/-- mh2c/http2_client.cpp:36-42: effect of one header entry on a table. `get_header` (line 38) returns a
copy; `get_max_size` (line 41) and `update_table_size` allocate nothing, unless they throw. -/
def updateEntryMem (e : HeaderEntry) (t : DynamicTable) (m : Memory) :
    Ended Unit × DynamicTable × Memory :=
  if e.pfx = .incrementalIndexing then
    if m.next.1 then
      match e.getHeader with
      | .ok h =>
          let (r, t') := t.pushMem h m.next.2.next.1
          (r, t', m.next.2.next.2)
      | .throw x => (.res (.throw x), t, m.next.2)
      | .ub k => (.res (.ub k), t, m.next.2)
      | .diverge => (.res .diverge, t, m.next.2)
    else (.badAlloc, t, m.next.2)
  else if e.pfx = .sizeUpdate then
    match e.getMaxSize with
    | .ok n =>
        match t.updateTableSize n with
        | .ok t' => (.res (.ok ()), t', m)
        | .throw x => (.res (.throw x), t, m)
        | .ub k => (.res (.ub k), t, m)
        | .diverge => (.res .diverge, t, m)
    | .throw x =>
        let (r, m') := raise (.throw x) m
        (r, t, m')
    | .ub k => (.res (.ub k), t, m)
    | .diverge => (.res .diverge, t, m)
  else (.res (.ok ()), t, m)

/-- mh2c/http2_client.cpp:31-46 `update_dynamic_table(header_block, table)`. -/
def updateTableMem : HeaderBlock → DynamicTable → Memory → Ended Unit × DynamicTable × Memory
  | [], t, m => (.res (.ok ()), t, m)
  | e :: es, t, m =>
      match updateEntryMem e t m with
      | (.res (.ok ()), t', m') => updateTableMem es t' m'
      | r => r

/-- mh2c/http2_client.cpp:54-64 and 81: the header block of the frame is copied, and the table updated
with the copy. A copy of an empty block needs no memory. -/
def copyBlockMem (block : HeaderBlock) (t : DynamicTable) (m : Memory) :
    Ended Unit × DynamicTable × Memory :=
  if block = [] then (.res (.ok ()), t, m)
  else if m.next.1 then updateTableMem block t m.next.2
  else (.badAlloc, t, m.next.2)

/-- mh2c/http2_client.cpp:48-83 `update_dynamic_table(frame_ptr, table)`. The parameters of SETTINGS are
copied too (lines 67-68). A HEADERS frame that is no `headers_frame` is dereferenced before anything is
allocated. -/
def updateFrameMem (f : Frame) (t : DynamicTable) (m : Memory) :
    Ended Unit × DynamicTable × Memory :=
  match frameTypeOf f.header.type, f with
  | some .headers, .headers h => copyBlockMem h.headerBlock t m
  | some .pushPromise, .pushPromise h => copyBlockMem h.payload.headerBlock t m
  | some .continuation, .continuation h => copyBlockMem h.headerBlock t m
  | some .settings, .settings h =>
      if h.payload = [] ∨ m.next.1 then
        (.res (updateDynamicTableFrame f t).1, (updateDynamicTableFrame f t).2, m.next.2)
      else (.badAlloc, t, m.next.2)
  | _, _ => (.res (updateDynamicTableFrame f t).1, (updateDynamicTableFrame f t).2, m)

/-- mh2c/frame/frame_builder.cpp:56-66 `build_headers_frame`: `std::bad_alloc` is a `std::exception` and is
caught like any other (line 61). Then a raw frame is made, which may run out of memory again. -/
def buildHeadersFrameMem [Platform] (fh : FrameHeader) (raw : Bytes) (table : DynamicTable)
    (m : Memory) : Ended Frame × Memory :=
  let rawFrame : Ended Frame × Memory :=
    if m.next.2.next.1 then (.res (.ok (.raw ⟨fh, raw⟩)), m.next.2.next.2)
    else (.badAlloc, m.next.2.next.2)
  if m.next.1 then
    match HeadersFrame.ofRaw fh raw table with
    | .ok f => (.res (.ok (.headers f)), m.next.2)
    | .throw _ => rawFrame
    | .ub k => (.res (.ub k), m.next.2)
    | .diverge => (.res .diverge, m.next.2)
  else rawFrame

/-- mh2c/frame/frame_builder.cpp:138-143 `build_frame`. -/
def buildFrameMem [Platform] (fh : FrameHeader) (raw : Bytes) (table : DynamicTable) (m : Memory) :
    Ended Frame × Memory :=
  if frameTypeOf fh.type = some .headers then buildHeadersFrameMem fh raw table m
  else if m.next.1 then (.res (buildFrame fh raw table), m.next.2)
  else (.badAlloc, m.next.2)

namespace Client

/-- mh2c/http2_client.cpp:112-116 `send_raw_data`: nothing is allocated, except for the text of an
exception. -/
def sendRawDataMem (c : Client) (data : Bytes) (m : Memory) : Ended Unit × Client × Memory :=
  let (r, c') := c.sendRawData data
  let (r', m') := raise r m
  (r', c', m')

/-- mh2c/http2_client.cpp:118-121 `receive_raw_data`: the caller has the memory already. -/
def receiveRawDataMem (c : Client) (length : Nat) (m : Memory) : Ended Bytes × Client × Memory :=
  let (r, c') := c.receiveRawData length
  let (r', m') := raise r m
  (r', c', m')

/-- mh2c/http2_client.cpp:123-130 `send_connection_preface`: the static string is made by the first call
that comes there; later calls have its memory already. -/
def sendPrefaceMem (c : Client) (m : Memory) : Ended Unit × Client × Memory :=
  if m.next.1 then c.sendRawDataMem (bstr "PRI * HTTP/2.0\r\n\r\nSM\r\n\r\n") m.next.2
  else (.badAlloc, c, m.next.2)

/-- mh2c/http2_client.ipp:9-14 `send_frame`: the octets are put together, then sent. -/
def sendFrameMem [Platform] (c : Client) (f : Frame) (m : Memory) : Ended Unit × Client × Memory :=
  if m.next.1 then
    match f.serialize with
    | .ok raw => c.sendRawDataMem raw m.next.2
    | .throw e => (.res (.throw e), c, m.next.2)
    | .ub k => (.res (.ub k), c, m.next.2)
    | .diverge => (.res .diverge, c, m.next.2)
  else (.badAlloc, c, m.next.2)

/-- mh2c/http2_client.cpp:142-145: build the frame and update the response table. -/
def processFrameMem [Platform] (c : Client) (fh : FrameHeader) (raw : Bytes) (m : Memory) :
    Ended Frame × Client × Memory :=
  match buildFrameMem fh raw c.responseTable m with
  | (.res (.ok f), m1) =>
      match updateFrameMem f c.responseTable m1 with
      | (.res (.ok ()), t, m') => (.res (.ok f), { c with responseTable := t }, m')
      | (.res (.throw e), t, m') => (.res (.throw e), { c with responseTable := t }, m')
      | (.res (.ub k), t, m') => (.res (.ub k), { c with responseTable := t }, m')
      | (.res .diverge, t, m') => (.res .diverge, { c with responseTable := t }, m')
      | (.badAlloc, t, m') => (.badAlloc, { c with responseTable := t }, m')
  | (.res (.throw e), m1) => (.res (.throw e), c, m1)
  | (.res (.ub k), m1) => (.res (.ub k), c, m1)
  | (.res .diverge, m1) => (.res .diverge, c, m1)
  | (.badAlloc, m1) => (.badAlloc, c, m1)

/-- mh2c/http2_client.cpp:132-146 `receive_frame`. Memory is needed for the nine octets of the header
(line 133), for the payload (line 137, as many octets as the header says; none if there are none), for
the texts of exceptions, and for the frame. -/
def receiveFrameMem [Platform] (c : Client) (m : Memory) : Ended Frame × Client × Memory :=
  if m.next.1 then
    match c.receiveRawData 9 with
    | (.ok rawFh, c1) =>
        match buildFrameHeader rawFh with
        | .ok fh =>
            if fh.length.toNat > 0 then
              if m.next.2.next.1 then
                match c1.receiveRawData fh.length.toNat with
                | (.ok raw, c2) => c2.processFrameMem fh raw m.next.2.next.2
                | (.throw e, c2) =>
                    let (r, m') := raise (.throw e) m.next.2.next.2
                    (r, c2, m')
                | (.ub k, c2) => (.res (.ub k), c2, m.next.2.next.2)
                | (.diverge, c2) => (.res .diverge, c2, m.next.2.next.2)
              else (.badAlloc, c1, m.next.2.next.2)
            else c1.processFrameMem fh [] m.next.2
        | .throw e => (.res (.throw e), c1, m.next.2)
        | .ub k => (.res (.ub k), c1, m.next.2)
        | .diverge => (.res .diverge, c1, m.next.2)
    | (.throw e, c1) =>
        let (r, m') := raise (.throw e) m.next.2
        (r, c1, m')
    | (.ub k, c1) => (.res (.ub k), c1, m.next.2)
    | (.diverge, c1) => (.res .diverge, c1, m.next.2)
  else (.badAlloc, c, m.next.2)

/-- mh2c/http2_client.cpp:148-152 `update_request_dynamic_table(header_block)`.
`update_request_dynamic_table(max_size)` (lines 154-157) allocates nothing. -/
def updateRequestTableMem (c : Client) (block : HeaderBlock) (m : Memory) :
    Ended Unit × Client × Memory :=
  let (r, t, m') := updateTableMem block c.requestTable m
  (r, { c with requestTable := t }, m')

end Client

end Mh2c
