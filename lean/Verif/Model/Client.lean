/-
Model of mh2c/http2_client.{h,ipp,cpp}.
-/
import Verif.Model.FrameBuilder
import Verif.Model.Ssl

namespace Mh2c

/-- mh2c/http2_client.cpp:102-105: the members of `http2_client::impl`. -/
structure Client where
  conn : Conn
  requestTable : DynamicTable
  responseTable : DynamicTable
  deriving DecidableEq, Repr

/-- mh2c/http2_client.cpp:108-110: a connected client has two default tables. -/
def Client.new (conn : Conn) : Client := ⟨conn, .default, .default⟩

/-- mh2c/http2_client.cpp:36-42: effect of one header entry on a table. -/
def updateDynamicTableEntry (e : HeaderEntry) (t : DynamicTable) : Res DynamicTable :=
  if e.pfx = .incrementalIndexing then do t.push (← e.getHeader)
  else if e.pfx = .sizeUpdate then do t.updateTableSize (← e.getMaxSize)
  else .ok t

/-- mh2c/http2_client.cpp:31-46 `update_dynamic_table(header_block, table)`. Returns the outcome and
the table as left behind, also when an entry throws in the middle. -/
def updateDynamicTable : HeaderBlock → DynamicTable → Res Unit × DynamicTable
  | [], t => (.ok (), t)
  | e :: es, t =>
      match updateDynamicTableEntry e t with
      | .ok t' => updateDynamicTable es t'
      | .throw x => (.throw x, t)
      | .ub k => (.ub k, t)
      | .diverge => (.diverge, t)

/-- mh2c/http2_client.cpp:48-83 `update_dynamic_table(frame_ptr, table)`. The dispatch is on the
type octet; the result of `dynamic_cast` is dereferenced without a check. -/
def updateDynamicTableFrame (f : Frame) (t : DynamicTable) : Res Unit × DynamicTable :=
  match frameTypeOf f.header.type with
  | some .headers =>
      match f with
      | .headers h => updateDynamicTable h.headerBlock t
      | _ => (.ub .nullDeref, t)
  | some .pushPromise =>
      match f with
      | .pushPromise h => updateDynamicTable h.payload.headerBlock t
      | _ => (.ub .nullDeref, t)
  | some .continuation =>
      match f with
      | .continuation h => updateDynamicTable h.headerBlock t
      | _ => (.ub .nullDeref, t)
  | some .settings =>
      match f with
      | .settings s =>
          match s.payload.lookup 1 with
          | some size =>
              match t.updateTableSize size.toNat with
              | .ok t' => (.ok (), t')
              | .throw x => (.throw x, t)
              | .ub k => (.ub k, t)
              | .diverge => (.diverge, t)
          | none => (.ok (), t)
      | _ => (.ub .nullDeref, t)
  | _ => (.ok (), t)

namespace Client

/-- mh2c/http2_client.cpp:112-116 and 169-172 `send_raw_data`. -/
def sendRawData (c : Client) (data : Bytes) : Res Unit × Client :=
  let (r, conn) := c.conn.write data
  (r, { c with conn := conn })

/-- mh2c/http2_client.cpp:118-121 and 174-177 `receive_raw_data`. -/
def receiveRawData (c : Client) (length : Nat) : Res Bytes × Client :=
  let (r, conn) := c.conn.read length
  (r, { c with conn := conn })

/-- mh2c/http2_client.cpp:123-130 `send_connection_preface`. -/
def sendConnectionPreface (c : Client) : Res Unit × Client :=
  c.sendRawData (bstr "PRI * HTTP/2.0\r\n\r\nSM\r\n\r\n")

/-- mh2c/http2_client.ipp:9-14 `send_frame`. -/
def sendFrame [Platform] (c : Client) (f : Frame) : Res Unit × Client :=
  match f.serialize with
  | .ok raw => c.sendRawData raw
  | .throw e => (.throw e, c)
  | .ub k => (.ub k, c)
  | .diverge => (.diverge, c)

/-- mh2c/http2_client.cpp:142-145: build the frame and update the response table. -/
def processFrame [Platform] (c : Client) (fh : FrameHeader) (raw : Bytes) : Res Frame × Client :=
  match buildFrame fh raw c.responseTable with
  | .ok f =>
      match updateDynamicTableFrame f c.responseTable with
      | (.ok (), t) => (.ok f, { c with responseTable := t })
      | (.throw e, t) => (.throw e, { c with responseTable := t })
      | (.ub k, t) => (.ub k, { c with responseTable := t })
      | (.diverge, t) => (.diverge, { c with responseTable := t })
  | .throw e => (.throw e, c)
  | .ub k => (.ub k, c)
  | .diverge => (.diverge, c)

/-- mh2c/http2_client.cpp:132-146 `receive_frame`. -/
def receiveFrame [Platform] (c : Client) : Res Frame × Client :=
  match c.receiveRawData 9 with
  | (.ok rawFh, c1) =>
      match buildFrameHeader rawFh with
      | .ok fh =>
          if fh.length.toNat > 0 then
            match c1.receiveRawData fh.length.toNat with
            | (.ok raw, c2) => c2.processFrame fh raw
            | (.throw e, c2) => (.throw e, c2)
            | (.ub k, c2) => (.ub k, c2)
            | (.diverge, c2) => (.diverge, c2)
          else c1.processFrame fh []
      | .throw e => (.throw e, c1)
      | .ub k => (.ub k, c1)
      | .diverge => (.diverge, c1)
  | (.throw e, c1) => (.throw e, c1)
  | (.ub k, c1) => (.ub k, c1)
  | (.diverge, c1) => (.diverge, c1)

/-- mh2c/http2_client.cpp:148-152 `update_request_dynamic_table(header_block)`. -/
def updateRequestDynamicTable (c : Client) (block : HeaderBlock) : Res Unit × Client :=
  let (r, t) := updateDynamicTable block c.requestTable
  (r, { c with requestTable := t })

/-- mh2c/http2_client.cpp:154-157 `update_request_dynamic_table(max_size)`. -/
def updateRequestTableSize (c : Client) (maxSize : Nat) : Res Unit × Client :=
  match c.requestTable.updateTableSize maxSize with
  | .ok t => (.ok (), { c with requestTable := t })
  | .throw e => (.throw e, c)
  | .ub k => (.ub k, c)
  | .diverge => (.diverge, c)

end Client

end Mh2c
