/-
Vocabulary for C90: what a header entry means for a dynamic table.
-/
import Verif.Spec.Session

namespace Mh2c

open Rfc

/-- What reporting an entry should do to a table: an INCREMENTAL_INDEXING header is inserted, a
SIZE_UPDATE size becomes the maximum, entries with other prefixes do nothing. None for an entry whose
prefix and contents contradict each other. -/
def HeaderEntry.effect (e : HeaderEntry) (t : Table) : Option Table :=
  match e.pfx, e.entry with
  | .incrementalIndexing, .header h => some (t.insert h)
  | .incrementalIndexing, .maxSize _ => none
  | .sizeUpdate, .maxSize n => some (t.setMax n)
  | .sizeUpdate, .header _ => none
  | _, _ => some t

/-- Entries reported one after the other. -/
inductive Effects : HeaderBlock → Table → Table → Prop
  | nil (t : Table) : Effects [] t t
  | cons (e : HeaderEntry) (es : HeaderBlock) (t t1 t' : Table) (h : e.effect t = some t1)
      (hr : Effects es t1 t') : Effects (e :: es) t t'

end Mh2c
