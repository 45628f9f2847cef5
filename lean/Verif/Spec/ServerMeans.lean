/-
Vocabulary for C71 and C85: what a server sends over a connection and means by it.
-/
import Verif.Spec.Kept
import Verif.Spec.ServerStream

namespace Mh2c

open Rfc

/-- A frame a server has sent: its type, the server's HPACK table when it began the frame, and the
representations in it, none if it carries no header block. -/
structure MeantFrame where
  type : UInt8
  start : Table
  steps : List BlockStep

/-- The header list the server means by a frame. -/
def MeantFrame.headers (m : MeantFrame) : List Field := fields (m.steps.map (·.item))

/-- Every reference in the frame denotes, in the table at the start of the frame, what it is meant to
denote. -/
def MeantFrame.Kept (m : MeantFrame) : Prop := ∀ s ∈ m.steps, Mh2c.Kept m.start s

/-- What a server sends, frame after frame. `t` and `t'` are its HPACK table before and after. Unlike
`ServerSends` this puts no restriction on the references in the header blocks. It does ask for
integers in their shortest form, for headers that fit the table they are inserted in and have a
name, for the layout of RFC 7540 section 6, for blocks that are split between representations only
and for SETTINGS without SETTINGS_HEADER_TABLE_SIZE. -/
inductive ServerMeans [Platform] : Table → Bytes → List MeantFrame → Table → Prop
  | nil (t : Table) : ServerMeans t [] [] t
  | block (t t1 t' : Table) (type flags : UInt8) (sid : UInt32) (payload block rest : Bytes)
      (steps : List BlockStep) (out : List MeantFrame) (hs : sid.toNat < 2 ^ 31)
      (hl : payload.length < 2 ^ 24) (hc : CarriesBlock flags type payload block)
      (hb : ShortBlock t block steps t1) (hf : Fits t.max (steps.map (·.item)))
      (hn : ∀ s ∈ steps, ∀ f, s.item = .incremental f → f.1 ≠ [])
      (ht : ∀ s ∈ steps, ItemTolerant s.item) (hr : ServerMeans t1 rest out t') :
      ServerMeans t (frameOctets type flags sid.toNat payload ++ rest) (⟨type, t, steps⟩ :: out) t'
  | other (t t' : Table) (type flags : UInt8) (sid : UInt32) (payload rest : Bytes)
      (out : List MeantFrame) (hs : sid.toNat < 2 ^ 31) (hl : payload.length < 2 ^ 24)
      (hb : type ∉ [1, 5, 9]) (hc : LayoutRule flags type payload)
      (h4 : type = 4 → NoTableSize payload) (hr : ServerMeans t rest out t') :
      ServerMeans t (frameOctets type flags sid.toNat payload ++ rest) (⟨type, t, []⟩ :: out) t'

end Mh2c
