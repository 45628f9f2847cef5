/-
Vocabulary for C111.
-/
import Verif.Model.Threads

namespace Mh2c

/-- The OpenSSL calls thread `i` has made, the library initialisation not counted. -/
def callsOf (i : Nat) (trace : List (Nat × ThreadEvent)) : List TlsCall :=
  trace.filterMap fun e => if e.1 = i then (match e.2 with | .call c => some c | _ => none) else none

end Mh2c
