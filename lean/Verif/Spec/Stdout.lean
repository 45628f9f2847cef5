/-
Counting what the library itself writes to standard output.
-/
import Verif.Model.Stdout
import Verif.Spec.Session

namespace Mh2c

/-- How many messages the library writes to standard output in one call. Only `receive_frame` has
code that writes. -/
def Op.messages [Platform] : Op → Client → Nat
  | .receiveFrame, c => c.receiveFrameMessages
  | _, _ => 0

/-- How many messages the library writes to standard output in a sequence of calls. -/
def messages [Platform] : List Op → Client → Nat
  | [], _ => 0
  | op :: ops, c => op.messages c + messages ops (op.run c).2

end Mh2c
