/-
Helper lemmas: bit strings as numbers.
-/
import Verif.Proofs.Bits
import Verif.Spec.Huffman

namespace Mh2c

open Rfc

@[simp] theorem bits_length (n x : Nat) : (bits n x).length = n := by
  induction n with
  | zero => rfl
  | succ k ih => simp [bits, ih]

@[simp] theorem bits_zero_len (x : Nat) : bits 0 x = [] := rfl

theorem bits_congr (n : Nat) {x y : Nat} (h : ∀ i < n, x.testBit i = y.testBit i) :
    bits n x = bits n y := by
  induction n with
  | zero => rfl
  | succ k ih => rw [bits, bits, h k (by omega), ih fun i hi => h i (by omega)]

theorem bits_mod (n x : Nat) : bits n (x % 2 ^ n) = bits n x := by
  apply bits_congr
  intro i hi
  rw [Nat.testBit_mod_two_pow]; simp [hi]

theorem bits_append (a b : Nat) {x y : Nat} (hy : y < 2 ^ b) :
    bits (a + b) (x * 2 ^ b + y) = bits a x ++ bits b y := by
  induction a with
  | zero =>
      simp only [Nat.zero_add, bits_zero_len, List.nil_append]
      rw [← bits_mod b (x * 2 ^ b + y), Nat.mul_comm, Nat.mul_add_mod, bits_mod]
  | succ k ih =>
      rw [Nat.succ_add, bits, ih, bits, List.cons_append]
      congr 1
      rw [Nat.mul_comm, Nat.testBit_two_pow_mul_add _ hy]
      simp

theorem bits_inj {n x y : Nat} (hx : x < 2 ^ n) (hy : y < 2 ^ n) (h : bits n x = bits n y) :
    x = y := by
  induction n generalizing x y with
  | zero => simp at hx hy; omega
  | succ k ih =>
      simp only [bits, List.cons.injEq] at h
      have hm := ih (x := x % 2 ^ k) (y := y % 2 ^ k) (Nat.mod_lt _ (Nat.two_pow_pos k))
        (Nat.mod_lt _ (Nat.two_pow_pos k)) (by rw [bits_mod, bits_mod]; exact h.2)
      apply Nat.eq_of_testBit_eq
      intro i
      rcases Nat.lt_trichotomy i k with hi | hi | hi
      · have := congrArg (fun z => z.testBit i) hm
        simpa [Nat.testBit_mod_two_pow, hi] using this
      · rw [hi]; exact h.1
      · have e : 2 ^ (k + 1) ≤ 2 ^ i := Nat.pow_le_pow_right (by omega) hi
        rw [Nat.testBit_lt_two_pow (lt_of_lt_of_le hx e),
          Nat.testBit_lt_two_pow (lt_of_lt_of_le hy e)]

/-- Split a bit string: the top `n` of `L` bits and the rest. -/
theorem bits_split {n L : Nat} (V : Nat) (h : n ≤ L) :
    bits L V = bits n (V / 2 ^ (L - n)) ++ bits (L - n) (V % 2 ^ (L - n)) := by
  conv_lhs => rw [show L = n + (L - n) by omega]
  rw [← bits_append n (L - n) (Nat.mod_lt _ (Nat.two_pow_pos _))]
  congr 1
  have := Nat.div_add_mod V (2 ^ (L - n))
  rw [Nat.mul_comm] at this
  rw [this]

theorem bits_prefix_iff {n L k V : Nat} (hk : k < 2 ^ n) (hV : V < 2 ^ L) :
    bits n k <+: bits L V ↔ n ≤ L ∧ V / 2 ^ (L - n) = k := by
  constructor
  · intro h
    have hn : n ≤ L := by simpa using h.length_le
    refine ⟨hn, ?_⟩
    rw [bits_split V hn] at h
    have h3 : bits n k = bits n (V / 2 ^ (L - n)) :=
      (List.prefix_of_prefix_length_le h (List.prefix_append _ _) (by simp)).eq_of_length (by simp)
    refine (bits_inj hk ?_ h3).symm
    apply Nat.div_lt_of_lt_mul
    rw [← Nat.pow_add]
    rwa [show L - n + n = L by omega]
  · rintro ⟨hn, rfl⟩
    rw [bits_split V hn]
    exact List.prefix_append _ _

theorem bytesBits_append (a b : List UInt8) : bytesBits (a ++ b) = bytesBits a ++ bytesBits b := by
  simp [bytesBits]

@[simp] theorem bytesBits_nil : bytesBits [] = [] := rfl

theorem bytesBits_cons (b : UInt8) (bs : List UInt8) :
    bytesBits (b :: bs) = bits 8 b.toNat ++ bytesBits bs := by
  simp [bytesBits]

theorem pow256 (n : Nat) : 256 ^ n = 2 ^ (8 * n) := by
  rw [Nat.pow_mul]

theorem bytesBits_eq (v : List UInt8) : bytesBits v = bits (8 * v.length) (beValue v) := by
  induction v with
  | nil => rfl
  | cons b bs ih =>
      rw [bytesBits_cons, ih, beValue_cons, pow256]
      have h := beValue_lt bs
      rw [pow256] at h
      rw [← bits_append 8 _ h, List.length_cons]
      congr 1
      ring

theorem bytesBits_length (v : List UInt8) : (bytesBits v).length = 8 * v.length := by
  rw [bytesBits_eq, bits_length]

theorem bytesBits_inj {a b : List UInt8} (h : bytesBits a = bytesBits b) : a = b := by
  have hl : a.length = b.length := by
    have := congrArg List.length h
    rw [bytesBits_length, bytesBits_length] at this
    omega
  apply beValue_inj hl
  rw [bytesBits_eq, bytesBits_eq, hl] at h
  refine bits_inj ?_ ?_ h
  · rw [← hl, ← pow256]; exact beValue_lt a
  · rw [← pow256]; exact beValue_lt b

theorem bits_ones (n : Nat) : bits n (2 ^ n - 1) = List.replicate n true := by
  induction n with
  | zero => rfl
  | succ k ih =>
      rw [bits, List.replicate_succ]
      congr 1
      · rw [Nat.testBit_two_pow_sub_one]; simp
      · rw [← ih]
        apply bits_congr
        intro i hi
        rw [Nat.testBit_two_pow_sub_one, Nat.testBit_two_pow_sub_one]
        simp [hi]; omega

/-- Clearing the top bits by exclusive or. -/
theorem xor_high (x k : Nat) : x ^^^ (x / 2 ^ k * 2 ^ k) = x % 2 ^ k := by
  apply Nat.eq_of_testBit_eq
  intro i
  rw [Nat.testBit_xor, Nat.testBit_mod_two_pow, Nat.testBit_mul_two_pow]
  by_cases h : i < k
  · simp [h, Nat.not_le.2 h]
  · have h' : k ≤ i := by omega
    simp only [h', decide_true, Bool.true_and, h, decide_false, Bool.false_and]
    rw [← Nat.shiftRight_eq_div_pow, Nat.testBit_shiftRight]
    rw [show k + (i - k) = i by omega]
    simp

/-- Joining disjoint bit ranges by inclusive or. -/
theorem or_low {y k : Nat} (x : Nat) (hy : y < 2 ^ k) : x * 2 ^ k ||| y = x * 2 ^ k + y := by
  rw [Nat.mul_comm]
  exact (Nat.two_pow_add_eq_or_of_lt hy x).symm

end Mh2c
