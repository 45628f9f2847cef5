/-
Outcomes, platform parameters and octet helpers shared by the model.

C++ behaviour that a pure function cannot express is an explicit outcome here:
an exception, undefined behaviour, or a loop that makes no progress.
-/
namespace Mh2c

/-- `byte_array_t` (mh2c/common/byte_array.h) and `std::string`: a string of octets.
Simplification: lengths are unbounded naturals (`size_t` overflow is not modelled). -/
abbrev Bytes := List UInt8

/-- The exception classes thrown by the library or by the standard containers it uses.
All derive from `std::exception`. Their messages are in `Model/What`. -/
inductive Exc
  | invalidArgument
  | outOfRange
  | runtimeError
  deriving DecidableEq, Repr

/-- Kinds of undefined behaviour distinguished by the model. -/
inductive Ub
  /-- reading outside a buffer (dereferencing `end()`, iterating past it) -/
  | outOfBounds
  /-- forming `v[v.size()]` without reading it -/
  | indexAtEnd
  /-- erasing or moving an iterator outside the vector -/
  | badIterator
  /-- `back()`/`pop_back()` on an empty vector -/
  | emptyBack
  /-- signed integer overflow -/
  | signedOverflow
  /-- shift by too much, or signed left shift whose result does not fit -/
  | badShift
  /-- dereferencing a null pointer -/
  | nullDeref
  /-- using a reference to an object that has been destroyed -/
  | dangling
  deriving DecidableEq, Repr

/-- Outcome of a C++ call. -/
inductive Res (α : Type) where
  | ok (a : α)
  | throw (e : Exc)
  | ub (k : Ub)
  /-- a loop iteration without progress: the call does not return -/
  | diverge
  deriving DecidableEq, Repr

namespace Res

variable {α β γ : Type}

/-- Sequencing: the first abnormal outcome ends the call. -/
protected def bind (x : Res α) (f : α → Res β) : Res β :=
  match x with
  | ok a => f a
  | throw e => throw e
  | ub k => ub k
  | diverge => diverge

instance : Monad Res where
  pure := ok
  bind := Res.bind

@[simp] theorem pure_eq (a : α) : (pure a : Res α) = ok a := rfl
@[simp] theorem ok_bind (a : α) (f : α → Res β) : (ok a >>= f) = f a := rfl
@[simp] theorem throw_bind (e : Exc) (f : α → Res β) : (throw e >>= f) = throw e := rfl
@[simp] theorem ub_bind (k : Ub) (f : α → Res β) : (ub k >>= f) = ub k := rfl
@[simp] theorem diverge_bind (f : α → Res β) : (diverge >>= f) = diverge := rfl

/-- The call returns a value or throws: no undefined behaviour, no infinite loop. -/
def Safe : Res α → Prop
  | ok _ => True
  | throw _ => True
  | ub _ => False
  | diverge => False

/-- The call has undefined behaviour. -/
def IsUb (x : Res α) : Prop := ∃ k, x = ub k

/-- The call ends with an exception. -/
def Throws (x : Res α) : Prop := ∃ e, x = throw e

/-- The call returns normally. -/
def Returns (x : Res α) : Prop := ∃ a, x = ok a

@[simp] theorem safe_ok (a : α) : (ok a).Safe := trivial
@[simp] theorem safe_throw (e : Exc) : (throw e : Res α).Safe := trivial
@[simp] theorem not_safe_ub (k : Ub) : ¬ (ub k : Res α).Safe := fun h => h
@[simp] theorem not_safe_diverge : ¬ (diverge : Res α).Safe := fun h => h

theorem bind_eq_ok {x : Res α} {f : α → Res β} {b : β} :
    (x >>= f) = ok b ↔ ∃ a, x = ok a ∧ f a = ok b := by
  cases x <;> simp

instance : DecidablePred (@Safe α) := fun x => by
  cases x <;> simp only [Safe] <;> infer_instance

end Res

/-- Properties of the host the code is compiled for. Theorems quantify over both. -/
class Platform where
  /-- byte order of the host, seen through `reinterpret_cast<const uint8_t*>` -/
  bigEndian : Bool
  /-- whether forming `v[v.size()]` without reading the element counts as undefined
  (ISO C++: yes; libstdc++/libc++ without assertions: harmless) -/
  strictIndex : Bool

/-- A little-endian host with unchecked `operator[]` (x86-64, libstdc++ default).
Only used in examples. -/
@[reducible] def x86 : Platform := { bigEndian := false, strictIndex := false }

/-- A big-endian host with checked `operator[]`. Only used in examples. -/
@[reducible] def strictBig : Platform := { bigEndian := true, strictIndex := true }

/-- The octets of a C++ string literal (ASCII). -/
def bstr (s : String) : Bytes := s.toList.map fun c => UInt8.ofNat c.toNat

/-- Conversion to `uint8_t`. -/
abbrev u8 (n : Nat) : UInt8 := UInt8.ofNat n

/-- `*v.begin()`, `v.front()`, `v[0]` when the element is read. -/
def front : Bytes → Res UInt8
  | [] => .ub .outOfBounds
  | b :: _ => .ok b

/-- `v[i]` when the element is read. -/
def readAt (v : Bytes) (i : Nat) : Res UInt8 :=
  match v[i]? with
  | some b => .ok b
  | none => .ub .outOfBounds

/-- `v.erase(v.begin(), v.begin() + n)`. -/
def eraseFirst (n : Nat) (v : Bytes) : Res Bytes :=
  if n ≤ v.length then .ok (v.drop n) else .ub .badIterator

/-- The range `[v.begin() + from, v.begin() + from + len)` copied to a new vector. -/
def copyRange (v : Bytes) (start len : Nat) : Res Bytes :=
  if start + len ≤ v.length then .ok ((v.drop start).take len) else .ub .outOfBounds

/-- `&v[i]` formed as an address, then `len` octets read from it. With `i == v.size()` and
`len == 0` only the formation of `v[i]` is questionable, see `Platform.strictIndex`. -/
def addressRange [P : Platform] (v : Bytes) (i len : Nat) : Res Bytes :=
  if i + len ≤ v.length then
    if i = v.length ∧ P.strictIndex = true then .ub .indexAtEnd
    else .ok ((v.drop i).take len)
  else .ub .outOfBounds

/-- `a << k` where `a` is a non-negative `int` (C++17 [expr.shift]): defined iff `k < 32` and
`a * 2^k` fits `unsigned int`; the bit pattern of the result is `a * 2^k`. -/
def shlInt (a k : Nat) : Res Nat :=
  if k < 32 ∧ a * 2 ^ k < 2 ^ 32 then .ok (a * 2 ^ k) else .ub .badShift

/-- `a << k` where `a` is `uint32_t`: defined iff `k < 32`, wraps. -/
def shlU32 (a k : Nat) : Res Nat :=
  if k < 32 then .ok (a * 2 ^ k % 2 ^ 32) else .ub .badShift

/-- `a >> k` where `a` is `uint32_t`: defined iff `k < 32`. -/
def shrU32 (a k : Nat) : Res Nat :=
  if k < 32 then .ok (a / 2 ^ k) else .ub .badShift

end Mh2c
