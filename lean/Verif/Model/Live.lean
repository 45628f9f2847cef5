/-
Model of the receiving calls of a client whose server is still there: a `BIO_read` for which there is nothing
waits until the server sends something, instead of failing.
-/
import Verif.Model.Client
import Verif.Model.Sample

namespace Mh2c

/-- mh2c/ssl/ssl_connection.cpp:121-136 `read`: whether one of the calls of `BIO_read` has nothing to read, so that
it waits. As in `readLoop`, 0 or an exhausted list is an error return, for instance because the server has closed
the connection. Simplification: what the server sends while the call waits counts as there from the beginning (it
may arrive in any parts, which are what `reads` says), so that a call that waits waits for ever. -/
def readWaits : (reads : List Nat) → (incoming : Bytes) → (length : Nat) → Bool
  | _, _, 0 => false
  | [], _, _ + 1 => false
  | r :: rs, incoming, length + 1 =>
      if min r (toIntLength (length + 1)) = 0 then false
      else if incoming = [] then true
      else
        let k := min r (min (toIntLength (length + 1)) incoming.length)
        readWaits rs (incoming.drop k) (length + 1 - k)

/-- mh2c/http2_client.cpp:118-121 and 174-177 `receive_raw_data`: whether it waits for ever. -/
def Client.receiveRawWaits (c : Client) (length : Nat) : Bool :=
  readWaits c.conn.reads c.conn.incoming length

/-- mh2c/http2_client.cpp:132-146 `receive_frame`: whether one of its two reads waits for ever. -/
def Client.receiveFrameWaits (c : Client) : Bool :=
  if c.receiveRawWaits 9 then true
  else
    match c.receiveRawData 9 with
    | (.ok rawFh, c1) =>
        match buildFrameHeader rawFh with
        | .ok fh => if fh.length.toNat > 0 then c1.receiveRawWaits fh.length.toNat else false
        | _ => false
    | _ => false

/-- sample/h2_get/sample_h2_get.cpp:28-46 `receive_frames`: whether one of its calls of `receive_frame` waits for
ever. The loop sends nothing, so that the server has nothing more to answer. The last guard is that of
`receiveFrames`. -/
def Sample.receiveFramesWaits [Platform] (s : Sample.State) : Bool :=
  if s.client.receiveFrameWaits then true
  else
    match s.client.receiveFrame with
    | (.ok f, c) =>
        match f.dump s.cout with
        | .ok out =>
            if Sample.isMoreData f.header then
              if c.conn.reads.length < s.client.conn.reads.length then
                Sample.receiveFramesWaits ⟨c, out⟩
              else false
            else false
        | _ => false
    | _ => false
termination_by s.client.conn.reads.length

end Mh2c
