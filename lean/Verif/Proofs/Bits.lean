/-
Helper lemmas about octets, byte order and bit extraction.
-/
import Mathlib.Tactic.Ring
import Mathlib.Tactic.Linarith
import Verif.Model.Bits
import Verif.Spec.Bytes

namespace Mh2c

open Rfc

theorem lowBits_eq (n x : Nat) : lowBits n x = x % 2 ^ n := by
  unfold lowBits
  rw [Nat.one_shiftLeft]
  exact Nat.and_two_pow_sub_one_eq_mod x n

theorem highBits_eq (w n x : Nat) : highBits w n x = x / 2 ^ (w - n) := by
  unfold highBits
  exact Nat.shiftRight_eq_div_pow x (w - n)

theorem u8_toNat (n : Nat) : (u8 n).toNat = n % 256 := by simp

@[simp] theorem be_length (size x : Nat) : (be size x).length = size := by
  induction size with
  | zero => rfl
  | succ k ih => simp [be, ih]

theorem beValue_foldl (v : List UInt8) (acc : Nat) :
    v.foldl (fun acc b => 256 * acc + b.toNat) acc = acc * 256 ^ v.length + beValue v := by
  induction v generalizing acc with
  | nil => simp [beValue]
  | cons b bs ih =>
      simp only [List.foldl_cons, beValue, List.length_cons]
      rw [ih, ih (256 * 0 + b.toNat)]
      ring

@[simp] theorem beValue_nil : beValue [] = 0 := rfl

theorem beValue_cons (b : UInt8) (bs : List UInt8) :
    beValue (b :: bs) = b.toNat * 256 ^ bs.length + beValue bs := by
  rw [beValue, List.foldl_cons, beValue_foldl]; simp

theorem beValue_append (a b : List UInt8) :
    beValue (a ++ b) = beValue a * 256 ^ b.length + beValue b := by
  unfold beValue
  rw [List.foldl_append, beValue_foldl]
  rfl

theorem beValue_lt (v : List UInt8) : beValue v < 256 ^ v.length := by
  induction v with
  | nil => simp
  | cons b bs ih =>
      rw [beValue_cons, List.length_cons, Nat.pow_succ]
      have hb : b.toNat < 256 := b.toNat_lt
      calc b.toNat * 256 ^ bs.length + beValue bs
          < b.toNat * 256 ^ bs.length + 256 ^ bs.length := by omega
        _ = (b.toNat + 1) * 256 ^ bs.length := by ring
        _ ≤ 256 * 256 ^ bs.length := Nat.mul_le_mul_right _ (by omega)
        _ = 256 ^ bs.length * 256 := by ring

theorem beValue_be (size x : Nat) : beValue (be size x) = x % 256 ^ size := by
  induction size with
  | zero => simp [be, Nat.mod_one]
  | succ k ih =>
      rw [be, beValue_cons, ih, be_length]
      have h : (UInt8.ofNat (x / 256 ^ k % 256)).toNat = x / 256 ^ k % 256 := by simp
      rw [h, Nat.pow_succ, Nat.mod_mul]
      ring

theorem be_eq_of_mod (size : Nat) {x y : Nat} (h : x % 256 ^ size = y % 256 ^ size) :
    be size x = be size y := by
  induction size with
  | zero => rfl
  | succ k ih =>
      have h1 : x % 256 ^ k = y % 256 ^ k := by
        have := congrArg (· % 256 ^ k) h
        simp only [Nat.pow_succ] at this
        rwa [Nat.mod_mul_right_mod, Nat.mod_mul_right_mod] at this
      have h2 : x / 256 ^ k % 256 = y / 256 ^ k % 256 := by
        have := congrArg (· / 256 ^ k) h
        simp only [Nat.pow_succ] at this
        rwa [Nat.mod_mul_right_div_self, Nat.mod_mul_right_div_self] at this
      rw [be, be, ih h1, h2]

theorem be_beValue (v : List UInt8) : be v.length (beValue v) = v := by
  induction v with
  | nil => rfl
  | cons b bs ih =>
      rw [List.length_cons, be, beValue_cons]
      have hlt := beValue_lt bs
      have hpos : 0 < 256 ^ bs.length := Nat.pow_pos (by omega)
      have h1 : (b.toNat * 256 ^ bs.length + beValue bs) / 256 ^ bs.length = b.toNat := by
        rw [Nat.mul_comm, Nat.mul_add_div hpos, Nat.div_eq_of_lt hlt]; simp
      rw [h1]
      have h2 : UInt8.ofNat (b.toNat % 256) = b := by
        rw [Nat.mod_eq_of_lt b.toNat_lt]; simp
      rw [h2]
      congr 1
      conv_rhs => rw [← ih]
      apply be_eq_of_mod
      rw [Nat.mul_comm, Nat.mul_add_mod]

theorem beValue_inj {a b : List UInt8} (hl : a.length = b.length) (h : beValue a = beValue b) :
    a = b := by
  rw [← be_beValue a, ← be_beValue b, hl, h]

/-! ### Byte order of the host -/

@[simp] theorem littleBytes_length (size x : Nat) : (littleBytes size x).length = size := by
  induction size generalizing x with
  | zero => rfl
  | succ k ih => simp [littleBytes, ih]

theorem littleValue_lt (v : Bytes) : littleValue v < 256 ^ v.length := by
  induction v with
  | nil => simp [littleValue]
  | cons b bs ih =>
      rw [littleValue, List.length_cons, Nat.pow_succ]
      have hb : b.toNat < 256 := b.toNat_lt
      omega

theorem littleBytes_littleValue (v : Bytes) : littleBytes v.length (littleValue v) = v := by
  induction v with
  | nil => rfl
  | cons b bs ih =>
      rw [List.length_cons, littleBytes, littleValue]
      have hb : b.toNat < 256 := b.toNat_lt
      have h1 : (b.toNat + 256 * littleValue bs) % 256 = b.toNat := by omega
      have h2 : (b.toNat + 256 * littleValue bs) / 256 = littleValue bs := by omega
      rw [h1, h2, ih]
      simp

theorem littleValue_eq_beValue (v : Bytes) : littleValue v = beValue v.reverse := by
  induction v with
  | nil => rfl
  | cons b bs ih =>
      rw [littleValue, List.reverse_cons, beValue_append, ih]
      simp [beValue_cons]
      ring

theorem littleValue_littleBytes (size x : Nat) :
    littleValue (littleBytes size x) = x % 256 ^ size := by
  induction size generalizing x with
  | zero => simp [littleBytes, littleValue, Nat.mod_one]
  | succ k ih =>
      rw [littleBytes, littleValue, ih, u8_toNat, Nat.pow_succ, Nat.mul_comm (256 ^ k) 256,
        Nat.mod_mul, Nat.mod_mod]

theorem littleBytes_reverse (size x : Nat) : (littleBytes size x).reverse = be size x := by
  apply beValue_inj (by simp)
  rw [← littleValue_eq_beValue, littleValue_littleBytes, beValue_be]

/-- Serialization of an integer gives the big-endian octets on every host. -/
theorem netBytes_eq [P : Platform] (size x : Nat) : netBytes size x = be size x := by
  unfold netBytes memBytes hostToNet
  by_cases h : P.bigEndian
  · simp [h, littleBytes_reverse]
  · simp only [h, Bool.false_eq_true, if_false]
    have := littleBytes_littleValue (littleBytes size x).reverse
    rw [List.length_reverse, littleBytes_length] at this
    rw [this, littleBytes_reverse]

theorem integral2bytes_eq (size x : Nat) : integral2bytes size x = be size x := by
  induction size with
  | zero => rfl
  | succ k ih =>
      unfold integral2bytes at ih ⊢
      rw [List.range_succ, List.reverse_append, List.reverse_singleton, List.singleton_append,
        List.map_cons, ih, be]
      congr 2
      rw [lowBits_eq, Nat.shiftRight_eq_div_pow, Nat.pow_mul]
      norm_num

/-! ### `bytes2integral` -/

theorem bytes2integralLoop_ok (size left : Nat) (v : Bytes) (acc : Nat)
    (hs : left ≤ size) (h4 : size ≤ 4) (hv : left ≤ v.length)
    (hacc : acc % 256 ^ left = 0) (hlt : acc < 256 ^ size) :
    bytes2integralLoop size left v acc = .ok (acc + beValue (v.take left)) := by
  induction left generalizing v acc with
  | zero => simp [bytes2integralLoop]
  | succ k ih =>
      match v, hv with
      | b :: bs, hv =>
        have hk : k ≤ bs.length := by simpa using hv
        have hb : b.toNat < 256 := b.toNat_lt
        have hp : (256 : Nat) ^ k = 2 ^ (k * 8) := by rw [Nat.mul_comm, Nat.pow_mul]
        have hp4 : (2 : Nat) ^ 32 = 256 ^ 4 := by norm_num
        have hk4 : k + 1 ≤ 4 := by omega
        have hle : b.toNat * 256 ^ k < 256 ^ (k + 1) := by
          rw [Nat.pow_succ, Nat.mul_comm]
          exact Nat.mul_lt_mul_of_pos_left hb (Nat.pow_pos (by omega))
        have hshl : shlInt b.toNat (k * 8) = .ok (b.toNat * 256 ^ k) := by
          unfold shlInt
          rw [← hp, if_pos]
          refine ⟨by omega, lt_of_lt_of_le hle ?_⟩
          rw [hp4]
          exact Nat.pow_le_pow_right (by omega) hk4
        -- the sum does not wrap
        have hsum : acc + b.toNat * 256 ^ k < 256 ^ size := by
          obtain ⟨q, hq⟩ := Nat.dvd_of_mod_eq_zero hacc
          have hsz : (256 : Nat) ^ size = 256 ^ (k + 1) * 256 ^ (size - (k + 1)) := by
            rw [← Nat.pow_add]; congr 1; omega
          rw [hsz] at hlt ⊢
          rw [hq] at hlt ⊢
          have hq' : q < 256 ^ (size - (k + 1)) := Nat.lt_of_mul_lt_mul_left hlt
          calc 256 ^ (k + 1) * q + b.toNat * 256 ^ k
              < 256 ^ (k + 1) * q + 256 ^ (k + 1) := by omega
            _ = 256 ^ (k + 1) * (q + 1) := by ring
            _ ≤ _ := Nat.mul_le_mul_left _ hq'
        have hmod : (acc + b.toNat * 256 ^ k) % 2 ^ (8 * size) = acc + b.toNat * 256 ^ k := by
          rw [Nat.pow_mul]; exact Nat.mod_eq_of_lt hsum
        rw [bytes2integralLoop, hshl, Res.ok_bind, hmod, ih bs _ (by omega) hk ?_ hsum]
        · rw [List.take_succ_cons, beValue_cons, List.length_take, Nat.min_eq_left hk]
          congr 1; ring
        · have h0 : acc % 256 ^ k = 0 := by
            apply Nat.mod_eq_zero_of_dvd
            exact dvd_trans (Nat.pow_dvd_pow 256 (Nat.le_succ k)) (Nat.dvd_of_mod_eq_zero hacc)
          rw [Nat.add_mul_mod_self_right, h0]

theorem bytes2integralLoop_short (size left : Nat) (v : Bytes) (acc : Nat)
    (h4 : left ≤ 4) (hv : v.length < left) :
    bytes2integralLoop size left v acc = .ub .outOfBounds := by
  induction left generalizing v acc with
  | zero => omega
  | succ k ih =>
      match v with
      | [] => rfl
      | b :: bs =>
        have hk : bs.length < k := by simpa using hv
        have hb : b.toNat < 256 := b.toNat_lt
        have hshl : shlInt b.toNat (k * 8) = .ok (b.toNat * 2 ^ (k * 8)) := by
          unfold shlInt
          rw [if_pos]
          refine ⟨by omega, ?_⟩
          calc b.toNat * 2 ^ (k * 8) < 256 * 2 ^ (k * 8) :=
                Nat.mul_lt_mul_of_pos_right hb (Nat.pow_pos (by omega))
            _ = 2 ^ (8 + k * 8) := by rw [Nat.pow_add]
            _ ≤ 2 ^ 32 := Nat.pow_le_pow_right (by omega) (by omega)
        rw [bytes2integralLoop, hshl, Res.ok_bind, ih bs _ (by omega) hk]

theorem bytes2integral_ok {size : Nat} {v : Bytes} (h4 : size ≤ 4) (hv : size ≤ v.length) :
    bytes2integral size v = .ok (beValue (v.take size)) := by
  unfold bytes2integral
  rw [bytes2integralLoop_ok size size v 0 le_rfl h4 hv (by simp) (Nat.pow_pos (by omega))]
  simp

theorem bytes2integral_short {size : Nat} {v : Bytes} (h4 : size ≤ 4) (hv : v.length < size) :
    bytes2integral size v = .ub .outOfBounds :=
  bytes2integralLoop_short size size v 0 h4 hv

end Mh2c
