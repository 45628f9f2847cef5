/-
Vocabulary for C85: everything a server sends over a connection.
-/
import Verif.Spec.Blocks
import Verif.Spec.FrameRules
import Verif.Spec.Conversation

namespace Mh2c

open Rfc

/-- The header list a frame delivers. -/
def Frame.headerList : Frame → List Header
  | .headers f => headersOf f.headerBlock
  | .pushPromise f => headersOf f.payload.headerBlock
  | .continuation f => headersOf f.headerBlock
  | _ => []

/-- A SETTINGS payload does not contain SETTINGS_HEADER_TABLE_SIZE. -/
def NoTableSize (payload : Bytes) : Prop :=
  ∀ settings, payload = settingsOctets settings → settings.lookup 1 = none

/-- What a restrained server sends, frame after frame. `t` and `t'` are its HPACK table before and
after, the list gives the type of each frame and the header list it means.

Restrained: header blocks as in C32, headers it inserts fit the table, frames follow the layout of
RFC 7540 section 6, header blocks are split between representations only, no
SETTINGS_HEADER_TABLE_SIZE. -/
inductive ServerSends [Platform] : Table → Bytes → List (UInt8 × List Field) → Table → Prop
  | nil (t : Table) : ServerSends t [] [] t
  | block (t t1 t' : Table) (type flags : UInt8) (sid : UInt32) (payload block rest : Bytes)
      (items : List Item) (out : List (UInt8 × List Field)) (hs : sid.toNat < 2 ^ 31)
      (hl : payload.length < 2 ^ 24) (hc : CarriesBlock flags type payload block)
      (hb : PlainBlock t t block items t1) (hf : Fits t.max items)
      (ht : ∀ item ∈ items, ItemTolerant item) (hr : ServerSends t1 rest out t') :
      ServerSends t (frameOctets type flags sid.toNat payload ++ rest) ((type, fields items) :: out) t'
  | other (t t' : Table) (type flags : UInt8) (sid : UInt32) (payload rest : Bytes)
      (out : List (UInt8 × List Field)) (hs : sid.toNat < 2 ^ 31) (hl : payload.length < 2 ^ 24)
      (hb : type ∉ [1, 5, 9]) (hc : LayoutRule flags type payload)
      (h4 : type = 4 → NoTableSize payload) (hr : ServerSends t rest out t') :
      ServerSends t (frameOctets type flags sid.toNat payload ++ rest) ((type, []) :: out) t'

end Mh2c
