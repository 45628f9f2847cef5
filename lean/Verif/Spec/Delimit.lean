/-
Specification: where the representations of a header block end (RFC 7541 section 6), whatever they
contain and refer to.
-/
import Verif.Spec.FrameLayout
import Verif.Spec.Hpack

namespace Rfc

/-- RFC 7541 5.2: `bs` starts with a complete string literal, a length and that many octets; `rest`
follows it. -/
inductive StringSpan (int : IntReader) : (bs rest : List UInt8) → Prop
  | mk (bs data rest : List UInt8) (hi : int 7 bs = some (data.length, data ++ rest)) :
      StringSpan int bs rest

/-- RFC 7541 section 6: `bs` starts with a complete representation; `rest` follows it. Strings are
not looked into, indices not looked up. -/
inductive ItemSpan (int : IntReader) : (bs rest : List UInt8) → Prop
  /-- 1xxxxxxx -/
  | indexed (b : UInt8) (bs rest : List UInt8) (i : Nat) (hb : 128 ≤ b.toNat)
      (hi : int 7 (b :: bs) = some (i, rest)) : ItemSpan int (b :: bs) rest
  /-- 001xxxxx -/
  | sizeUpdate (b : UInt8) (bs rest : List UInt8) (n : Nat) (hb : 32 ≤ b.toNat ∧ b.toNat < 64)
      (hi : int 5 (b :: bs) = some (n, rest)) : ItemSpan int (b :: bs) rest
  /-- 01xxxxxx, 0001xxxx, 0000xxxx with the index of a name -/
  | indexedName (b : UInt8) (bs rest1 rest : List UInt8) (n i : Nat)
      (hb : 64 ≤ b.toNat ∧ b.toNat < 128 ∧ n = 6 ∨ b.toNat < 32 ∧ n = 4)
      (hi : int n (b :: bs) = some (i, rest1)) (h0 : i ≠ 0) (hv : StringSpan int rest1 rest) :
      ItemSpan int (b :: bs) rest
  /-- the same with a literal name -/
  | newName (b : UInt8) (bs rest1 rest2 rest : List UInt8) (n : Nat)
      (hb : 64 ≤ b.toNat ∧ b.toNat < 128 ∧ n = 6 ∨ b.toNat < 32 ∧ n = 4)
      (hi : int n (b :: bs) = some (0, rest1)) (hn : StringSpan int rest1 rest2)
      (hv : StringSpan int rest2 rest) : ItemSpan int (b :: bs) rest

/-- A header block made of complete representations. -/
inductive BlockSpan (int : IntReader) : (bs : List UInt8) → Prop
  | nil : BlockSpan int []
  | cons (bs rest : List UInt8) (hi : ItemSpan int bs rest) (hr : BlockSpan int rest) :
      BlockSpan int bs

end Rfc

namespace Mh2c

open Rfc

/-- RFC 7540 6.1, 6.2, 6.6: what remains of a payload without pad length and padding. -/
inductive Content (flags : UInt8) : (raw content : Bytes) → Prop
  | plain (raw : Bytes) (h : ¬ hasPadded flags) : Content flags raw raw
  | padded (pad : UInt8) (content padding : Bytes) (h : hasPadded flags)
      (hl : padding.length = pad.toNat) : Content flags (pad :: (content ++ padding)) content

/-- RFC 7540 6.2, 6.6, 6.10: the header block in the payload of a HEADERS, PUSH_PROMISE or
CONTINUATION frame. -/
inductive CarriesBlock (flags : UInt8) : (type : UInt8) → (raw block : Bytes) → Prop
  | headers (raw block : Bytes) (hp : ¬ hasPriority flags) (h : Content flags raw block) :
      CarriesBlock flags 1 raw block
  | headersPriority (raw priority block : Bytes) (hp : hasPriority flags)
      (h : Content flags raw (priority ++ block)) (hl : priority.length = 5) :
      CarriesBlock flags 1 raw block
  | pushPromise (raw promised block : Bytes) (h : Content flags raw (promised ++ block))
      (hl : promised.length = 4) : CarriesBlock flags 5 raw block
  | continuation (raw : Bytes) : CarriesBlock flags 9 raw raw

end Mh2c
