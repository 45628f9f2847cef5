/-
Vocabulary for C33 and C114: the headers a program reports for indexing and those a peer inserts.
-/
import Verif.Spec.Session

namespace Mh2c

open Rfc

/-- The headers of a block that are to be indexed, in order. -/
def HeaderBlock.toIndex (block : HeaderBlock) : List Header :=
  block.filterMap fun e =>
    match e.pfx, e.entry with
    | .incrementalIndexing, .header h => some h
    | _, _ => none

/-- The headers that the items of a block insert into the decoder's table, in order. -/
def inserted (items : List Item) : List Field :=
  items.filterMap fun item =>
    match item with
    | .incremental f => some f
    | _ => none

/-- All headers reported for indexing in a sequence of calls, in order. -/
def reported (ops : List Op) : List Header :=
  ops.flatMap fun op =>
    match op with
    | .updateRequestBlock block => block.toIndex
    | _ => []

/-- The call leaves the maximum of the request table alone, and reports no entry whose prefix and
contents contradict each other. -/
def Op.KeepsMaximum : Op → Prop
  | .updateRequestBlock block => ∀ e ∈ block, e.pfx ≠ .sizeUpdate ∧ WellTyped e
  | .updateRequestSize _ => False
  | _ => True

end Mh2c
