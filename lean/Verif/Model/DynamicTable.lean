/-
Model of mh2c/hpack/dynamic_table.{h,cpp}.
-/
import Verif.Model.HeaderType

namespace Mh2c

/-- mh2c/hpack/dynamic_table.h:14-51 `dynamic_table`. Newest entry first. -/
structure DynamicTable where
  entries : List Header
  tableSize : Nat
  maxTableSize : Nat
  deriving DecidableEq, Repr

namespace DynamicTable

/-- mh2c/hpack/dynamic_table.h:27 `ENTRY_OVERHEAD_SIZE` with the lengths, as computed in
mh2c/hpack/dynamic_table.cpp:21-23 and 38-39. -/
def headerSize (h : Header) : Nat := h.1.length + h.2.length + 32

/-- mh2c/hpack/dynamic_table.cpp:34-35, constructor with an initial size. -/
def new (initialSize : Nat) : DynamicTable := ⟨[], 0, initialSize⟩

/-- mh2c/hpack/dynamic_table.cpp:32 and mh2c/hpack/dynamic_table.h:25 (`DEFAULT_TABLE_SIZE`). -/
def default : DynamicTable := new 4096

/-- mh2c/hpack/dynamic_table.cpp:14-28 `resize_table`, on the entries in reverse order (oldest
first). `entries->back()` on an empty vector is undefined. The subtraction is on `size_t` and
wraps modulo 2^64. -/
def resizeRev : (oldestFirst : List Header) → (current maxSize : Nat) → Res (List Header × Nat)
  | [], current, maxSize => if current > maxSize then .ub .emptyBack else .ok ([], current)
  | h :: hs, current, maxSize =>
      if current > maxSize then
        resizeRev hs ((current + 2 ^ 64 - headerSize h % 2 ^ 64) % 2 ^ 64) maxSize
      else .ok (h :: hs, current)

/-- mh2c/hpack/dynamic_table.cpp:14-28 `resize_table`: new entries and new size. -/
def resize (entries : List Header) (current maxSize : Nat) : Res (List Header × Nat) := do
  let (rev, size) ← resizeRev entries.reverse current maxSize
  return (rev.reverse, size)

/-- mh2c/hpack/dynamic_table.cpp:37-45 `push`. Simplification: the addition of line 40 is not reduced
modulo 2^64. The recorded size is at most the maximum and the added size is that of an object in
memory, so the two only differ for a maximum close to 2^64 whose table does not record the size of
its entries (which takes a write through an iterator, `writeThrough` below). -/
def push (t : DynamicTable) (h : Header) : Res DynamicTable := do
  let (entries, size) ← resize t.entries (t.tableSize + headerSize h) t.maxTableSize
  return { t with entries := h :: entries, tableSize := size }

/-- mh2c/hpack/dynamic_table.cpp:47-49 `at`. -/
def atPos (t : DynamicTable) (position : Nat) : Res Header :=
  match t.entries[position]? with
  | some h => .ok h
  | none => .throw .outOfRange

/-- mh2c/hpack/dynamic_table.cpp:37-45 `push` with the reference that `at(position)` (lines 47-49)
of the same table returns. `resize_table` (line 41) may remove the entry referred to, and line 42
then reads a destroyed object; otherwise `std::vector::insert` copies an element of the vector, which
it has to support. The addition is simplified as in `push`. -/
def pushOwn (t : DynamicTable) (position : Nat) : Res DynamicTable := do
  let h ← t.atPos position
  let (entries, size) ← resize t.entries (t.tableSize + headerSize h) t.maxTableSize
  if position < entries.length then return { t with entries := h :: entries, tableSize := size }
  else .ub .dangling

/-- mh2c/hpack/dynamic_table.cpp:50-53 `update_table_size`. -/
def updateTableSize (t : DynamicTable) (newSize : Nat) : Res DynamicTable := do
  let (entries, size) ← resize t.entries t.tableSize newSize
  return { entries := entries, tableSize := size, maxTableSize := newSize }

/-- mh2c/hpack/dynamic_table.cpp:67 and 73, mh2c/hpack/dynamic_table.h:42-45: the iterators of a
table that is not const are those of the vector, so `*(table.begin() + position) = h` compiles and
writes an entry. Dereferencing at or behind `end()` is undefined. -/
def writeThrough (t : DynamicTable) (position : Nat) (h : Header) : Res DynamicTable :=
  if position < t.entries.length then .ok { t with entries := t.entries.set position h }
  else .ub .badIterator

end DynamicTable

end Mh2c
