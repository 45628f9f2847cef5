/-
Vocabulary for C128: where the entries of a table come from.
-/
import Verif.Spec.Indexing
import Verif.Spec.History

namespace Mh2c

open Rfc

/-- The headers of a received frame that came as literals with incremental indexing, in order. -/
def Frame.toIndex : Frame → List Header
  | .headers f => f.headerBlock.toIndex
  | .pushPromise f => f.payload.headerBlock.toIndex
  | .continuation f => f.headerBlock.toIndex
  | _ => []

/-- The frames that a sequence of calls has returned, in order. -/
def delivered (calls : List (Op × Outcome)) : List Frame :=
  calls.filterMap fun call =>
    match call.2 with
    | .frame (.ok f) => some f
    | _ => none

end Mh2c
