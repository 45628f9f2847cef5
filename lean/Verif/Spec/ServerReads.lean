/-
Specification: how a server conforming to RFC 7540 and RFC 7541 reads what a client sends.
-/
import Verif.Spec.Delimit

namespace Mh2c

open Rfc

/-- RFC 7540 6.2, 6.6, 6.10: END_HEADERS, bit 2 of the flags. -/
def hasEndHeaders (flags : UInt8) : Prop := flags.toNat.testBit 2

/-- What a server learns from a frame, or from a frame and the CONTINUATION frames after it: type,
flags and stream of the first frame, the header list for HEADERS and PUSH_PROMISE, the payload
otherwise. -/
structure Seen where
  type : UInt8
  flags : UInt8
  streamId : UInt32
  fields : List Field
  payload : Bytes

/-- RFC 7540 4.3, 6.10: the CONTINUATION frames that must follow a frame with these flags on this
stream, and the rest of the header block they carry. -/
inductive Continues (sid : UInt32) : (flags : UInt8) → (wire block : Bytes) → Prop
  | done (flags : UInt8) (h : hasEndHeaders flags) : Continues sid flags [] []
  | more (flags flags' : UInt8) (fragment wire block : Bytes) (h : ¬ hasEndHeaders flags)
      (hl : fragment.length < 2 ^ 24) (hr : Continues sid flags' wire block) :
      Continues sid flags (frameOctets 9 flags' sid.toNat fragment ++ wire) (fragment ++ block)

/-- RFC 7540 section 4, RFC 7541: how a server that holds HPACK table `t` reads octets from a
client, frame after frame, and the table it then holds. The header block is put together from all
its fragments and decoded as one. -/
inductive ServerReads : (t : Table) → (wire : Bytes) → List Seen → (t' : Table) → Prop
  | nil (t : Table) : ServerReads t [] [] t
  | headers (t t1 t' : Table) (type flags : UInt8) (sid : UInt32)
      (payload fragment wire block rest : Bytes) (items : List Item) (seen : List Seen)
      (ht : type ≠ 9) (hs : sid.toNat < 2 ^ 31) (hl : payload.length < 2 ^ 24)
      (hc : CarriesBlock flags type payload fragment) (hm : Continues sid flags wire block)
      (hd : BlockDecodes t (fragment ++ block) items t1) (hr : ServerReads t1 rest seen t') :
      ServerReads t (frameOctets type flags sid.toNat payload ++ (wire ++ rest))
        (⟨type, flags, sid, fields items, []⟩ :: seen) t'
  | other (t t' : Table) (type flags : UInt8) (sid : UInt32) (payload rest : Bytes)
      (seen : List Seen) (hb : type ∉ [1, 5, 9]) (hs : sid.toNat < 2 ^ 31)
      (hl : payload.length < 2 ^ 24) (hr : ServerReads t rest seen t') :
      ServerReads t (frameOctets type flags sid.toNat payload ++ rest)
        (⟨type, flags, sid, [], payload⟩ :: seen) t'

end Mh2c
