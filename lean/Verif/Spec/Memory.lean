/-
Vocabulary for C138 and C139: histories in which memory runs out.
-/
import Verif.Model.Memory
import Verif.Spec.Session
import Verif.Spec.Causes

namespace Mh2c

/-- A call on a dynamic table, and whether there was memory for it. (`update_table_size` needs none.) -/
inductive ScarceOp
  /-- `push(header)` that returns -/
  | push (h : Header)
  /-- `push(header)` that throws `std::bad_alloc` -/
  | pushFails (h : Header)
  /-- `update_table_size(n)` -/
  | setMax (n : Nat)
  deriving DecidableEq

/-- The calls of a history, each with a defined outcome, made one after the other on a new table with
the maximum `initial`; exceptions are caught and the program goes on. Arguments fit the machine. -/
inductive ScarceHistory (initial : Nat) : List ScarceOp → DynamicTable → Prop
  | new (hn : initial < 2 ^ 63) : ScarceHistory initial [] (.new initial)
  | push (ops : List ScarceOp) (t t' : DynamicTable) (h : Header) (ht : ScarceHistory initial ops t)
      (hs : h.1.length + h.2.length + 32 < 2 ^ 63) (hp : t.pushMem h true = (.res (.ok ()), t')) :
      ScarceHistory initial (ops ++ [.push h]) t'
  | pushFails (ops : List ScarceOp) (t t' : DynamicTable) (h : Header)
      (ht : ScarceHistory initial ops t) (hs : h.1.length + h.2.length + 32 < 2 ^ 63)
      (hp : t.pushMem h false = (.badAlloc, t')) : ScarceHistory initial (ops ++ [.pushFails h]) t'
  | setMax (ops : List ScarceOp) (t t' : DynamicTable) (n : Nat) (ht : ScarceHistory initial ops t)
      (hn : n < 2 ^ 63) (hp : t.updateTableSize n = .ok t') :
      ScarceHistory initial (ops ++ [.setMax n]) t'

/-- The headers that could not be inserted. -/
def failed (ops : List ScarceOp) : List Header :=
  ops.filterMap fun | .pushFails h => some h | _ => none

/-- RFC 7541 4.1: the sum of the sizes of headers. -/
def sizes (hs : List Header) : Nat := (hs.map fun h => h.1.length + h.2.length + 32).sum

/-- The header block of a frame that has one. -/
def Frame.blockOf : Frame → HeaderBlock
  | .headers f => f.headerBlock
  | .pushPromise f => f.payload.headerBlock
  | .continuation f => f.headerBlock
  | _ => []

/-- Where the update of a table with a header block can run out of memory: the entries before one had
their effect. Either nothing more happened, or this one asks for indexing, and `push` got as far as it
does when the insertion fails. -/
def StopsInside (block : HeaderBlock) (before after : DynamicTable) : Prop :=
  ∃ done e rest t, block = done ++ e :: rest ∧ updateDynamicTable done before = (.ok (), t) ∧
    (after = t ∨
      e.pfx = .incrementalIndexing ∧ ∃ h, e.entry = .header h ∧ t.pushMem h false = (.badAlloc, after))

/-- A call of an operation when memory can run out. The value returned by the receiving operations is
dropped. -/
def Op.runMem [Platform] : Op → Client → Memory → Ended Unit × Client × Memory
  | .sendPreface, c, m => c.sendPrefaceMem m
  | .sendRaw data, c, m => c.sendRawDataMem data m
  | .receiveRaw n, c, m =>
      match c.receiveRawDataMem n m with
      | (.res r, c', m') => (.res (do let _ ← r; return ()), c', m')
      | (.badAlloc, c', m') => (.badAlloc, c', m')
  | .sendFrame f, c, m => c.sendFrameMem f m
  | .receiveFrame, c, m =>
      match c.receiveFrameMem m with
      | (.res r, c', m') => (.res (do let _ ← r; return ()), c', m')
      | (.badAlloc, c', m') => (.badAlloc, c', m')
  | .updateRequestBlock b, c, m => c.updateRequestTableMem b m
  | .updateRequestSize n, c, m =>
      match c.updateRequestTableSize n with
      | (r, c') => (.res r, c', m)

/-- A session in which memory may run out at any time: every call returned or threw, exceptions are
caught, the session goes on. `n` of the calls threw `std::bad_alloc`. -/
inductive ScarceSession [Platform] : Client → List Op → Nat → Client → Prop
  | nil (c : Client) : ScarceSession c [] 0 c
  | ends (c : Client) (op : Op) (m : Memory) (ops : List Op) (n : Nat) (r : Res Unit) (c' : Client)
      (hr : (op.runMem c m).1 = .res r) (hs : r.Safe) (h : ScarceSession (op.runMem c m).2.1 ops n c') :
      ScarceSession c (op :: ops) n c'
  | runsOut (c : Client) (op : Op) (m : Memory) (ops : List Op) (n : Nat) (c' : Client)
      (hr : (op.runMem c m).1 = .badAlloc) (h : ScarceSession (op.runMem c m).2.1 ops n c') :
      ScarceSession c (op :: ops) (n + 1) c'

end Mh2c
