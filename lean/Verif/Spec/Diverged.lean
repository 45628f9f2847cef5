/-
Vocabulary for C97 and C126: what a client whose HPACK table is not the server's understands.
-/
import Verif.Spec.ServerMeans

namespace Mh2c

open Rfc

/-- The table of an end that had `mine` and has read a frame the way the server meant it. -/
def MeantFrame.after (m : MeantFrame) (mine : Table) : Table :=
  (m.steps.map (·.item)).foldl Item.apply mine

/-- Every reference in every frame denotes in the table of the reader at the start of that frame, which
is `mine` at the first one, what the server means by it in its own table. -/
def Understood : (mine : Table) → List MeantFrame → Prop
  | _, [] => True
  | mine, m :: out => (∀ s ∈ m.steps, Kept mine s) ∧ Understood (m.after mine) out

/-- What is to be inserted fits the reader's table, which is `mine` at the first frame. -/
def Room : (mine : Table) → List MeantFrame → Prop
  | _, [] => True
  | mine, m :: out => Fits mine.max (m.steps.map (·.item)) ∧ Room (m.after mine) out

end Mh2c
