/-
Vocabulary for C118: which octets on the wire belong to which thread.
-/
import Verif.Spec.History

namespace Mh2c

/-- The calls that write to the connection. -/
def Op.writes : Op → Bool
  | .sendPreface | .sendRaw _ | .sendFrame _ => true
  | _ => false

/-- A call without a value that returned. -/
def Outcome.returned : Outcome → Bool
  | .done (.ok _) => true
  | _ => false

/-- The writing calls that returned, in order. -/
def returnedSends (results : List (Op × Outcome)) : List Op :=
  (results.filter fun x => x.1.writes && x.2.returned).map (·.1)

/-- Of octet strings put on the wire by several threads, those of thread `i`. -/
def partsOf (i : Nat) (order : List (Nat × Bytes)) : List Bytes :=
  (order.filter fun x => x.1 = i).map (·.2)

end Mh2c
