/-
Vocabulary for the dynamic table: its histories, and the table of RFC 7541 it stands for.
-/
import Verif.Model.DynamicTable
import Verif.Spec.Hpack

namespace Mh2c

open Rfc

/-- The specification table a model table stands for. -/
def DynamicTable.toRfc (t : DynamicTable) : Rfc.Table := ⟨t.entries, t.maxTableSize⟩

/-- A call on a dynamic table. -/
inductive TableOp
  /-- `push(header)` -/
  | push (h : Header)
  /-- `update_table_size(n)` -/
  | setMax (n : Nat)
  deriving DecidableEq

/-- Run the calls on the code's table. -/
def runOps : List TableOp → DynamicTable → Res DynamicTable
  | [], t => .ok t
  | .push h :: ops, t => do let t' ← t.push h; runOps ops t'
  | .setMax n :: ops, t => do let t' ← t.updateTableSize n; runOps ops t'

/-- The same operations on the specification's table. -/
def rfcOps : List TableOp → Table → Table
  | [], t => t
  | .push h :: ops, t => rfcOps ops (t.insert h)
  | .setMax n :: ops, t => rfcOps ops (t.setMax n)

/-- Every pushed header fits the maximum in force (`max` at the start); maxima are below 2^63. -/
def Admissible : (max : Nat) → List TableOp → Prop
  | max, [] => max < 2 ^ 63
  | max, .push h :: ops => max < 2 ^ 63 ∧ h.1.length + h.2.length + 32 ≤ max ∧ Admissible max ops
  | max, .setMax n :: ops => max < 2 ^ 63 ∧ Admissible n ops

instance Admissible.dec : (ops : List TableOp) → (max : Nat) → Decidable (Admissible max ops)
  | [], max => inferInstanceAs (Decidable (max < 2 ^ 63))
  | .push _ :: ops, max =>
      have := Admissible.dec ops max
      inferInstanceAs (Decidable (_ ∧ _ ∧ _))
  | .setMax n :: ops, _ =>
      have := Admissible.dec ops n
      inferInstanceAs (Decidable (_ ∧ _))

/-- The headers pushed in a history, newest first. -/
def pushed (ops : List TableOp) : List Header :=
  (ops.filterMap fun | .push h => some h | .setMax _ => none).reverse

/-- Tables made by any sequence of calls that returned, where an entry is only overwritten by one of
the same size. -/
inductive TableHistory : DynamicTable → Prop
  | new (n : Nat) (hn : n < 2 ^ 63) : TableHistory (.new n)
  | push (t t' : DynamicTable) (h : Header) (ht : TableHistory t)
      (hs : h.1.length + h.2.length + 32 < 2 ^ 63) (hp : t.push h = .ok t') : TableHistory t'
  | setMax (t t' : DynamicTable) (n : Nat) (ht : TableHistory t) (hn : n < 2 ^ 63)
      (hp : t.updateTableSize n = .ok t') : TableHistory t'
  | write (t t' : DynamicTable) (i : Nat) (old new : Header) (ht : TableHistory t)
      (hi : t.atPos i = .ok old) (hs : entrySize new = entrySize old)
      (hw : t.writeThrough i new = .ok t') : TableHistory t'

end Mh2c
