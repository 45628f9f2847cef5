/-
Helper lemmas: the Huffman encoder concatenates codes.
-/
import Verif.Proofs.HuffmanTable

namespace Mh2c

open Rfc Huffman

theorem shlU32_ok {a k : Nat} (hk : k < 32) (h : a * 2 ^ k < 2 ^ 32) :
    shlU32 a k = .ok (a * 2 ^ k) := by
  unfold shlU32
  rw [if_pos hk, Nat.mod_eq_of_lt h]

theorem shrU32_ok {a k : Nat} (hk : k < 32) : shrU32 a k = .ok (a / 2 ^ k) := by
  unfold shrU32
  rw [if_pos hk]

theorem mul_pow_lt {a m f : Nat} (h : a < 2 ^ m) : a * 2 ^ f < 2 ^ (m + f) := by
  rw [Nat.pow_add]
  exact Nat.mul_lt_mul_of_pos_right h (Nat.two_pow_pos f)

theorem pow_lt_32 {x k : Nat} (h : x < 2 ^ k) (hk : k ≤ 32) : x < 2 ^ 32 :=
  lt_of_lt_of_le h (Nat.pow_le_pow_right (by omega) hk)

theorem div_pow_lt {v n f : Nat} (h : v < 2 ^ n) (hf : f ≤ n) : v / 2 ^ (n - f) < 2 ^ f := by
  apply Nat.div_lt_of_lt_mul
  rw [← Nat.pow_add, show n - f + f = n by omega]
  exact h

theorem fillRecord_eq {a m v n : Nat} (hm : m ≤ 7) (ha : a < 2 ^ m) (hn : n ≤ 30) (hv : v < 2 ^ n) :
    fillRecord (a, m) (v, n) =
      .ok ((a * 2 ^ (min (8 - m) n) + v / 2 ^ (n - min (8 - m) n), m + min (8 - m) n),
        (v % 2 ^ (n - min (8 - m) n), n - min (8 - m) n)) := by
  unfold fillRecord
  simp only
  rw [show (256 + 8 - m) % 256 = 8 - m by omega]
  generalize hf : min (8 - m) n = f
  have hfn : f ≤ n := by omega
  have hf8 : m + f ≤ 8 := by omega
  have h1 : v / 2 ^ (n - f) * 2 ^ (n - f) < 2 ^ 32 :=
    lt_of_le_of_lt (Nat.div_mul_le_self _ _) (pow_lt_32 hv (by omega))
  rw [shrU32_ok (by omega), Res.ok_bind,
    shlU32_ok (by omega) (pow_lt_32 (mul_pow_lt ha) (by omega)), Res.ok_bind,
    shlU32_ok (by omega) h1, Res.ok_bind, Res.pure_eq, or_low _ (div_pow_lt hv hfn), xor_high]
  congr 3
  exact Nat.mod_eq_of_lt (by omega)

theorem bytesBits_snoc (out : List UInt8) {x : Nat} (hx : x < 256) :
    bytesBits (out ++ [u8 x]) = bytesBits out ++ bits 8 x := by
  rw [bytesBits_append, bytesBits_cons, u8_toNat, Nat.mod_eq_of_lt hx]
  simp

/-- What the encoder state denotes. -/
theorem encodeLoop_spec {a m v n : Nat} (hm : m ≤ 7) (ha : a < 2 ^ m) (hn : n ≤ 30)
    (hv : v < 2 ^ n) (h0 : m = 0 ∨ 8 ≤ m + n) (out : Bytes) :
    ∃ c k out', encodeLoop (a, m) (v, n) out = .ok ((c, k), out') ∧ k ≤ 7 ∧ c < 2 ^ k ∧
      bytesBits out' ++ bits k c = bytesBits out ++ bits m a ++ bits n v := by
  induction n using Nat.strong_induction_on generalizing a m v out with
  | _ n ih =>
    rw [encodeLoop]
    by_cases h8 : m + n ≥ 8
    · rw [if_pos h8, fillRecord_eq hm ha hn hv]
      have hf : min (8 - m) n = 8 - m := by omega
      rw [hf, Res.ok_bind]
      simp only
      rw [if_pos (by omega)]
      have hx : a * 2 ^ (8 - m) + v / 2 ^ (n - (8 - m)) < 256 := by
        have h1 : v / 2 ^ (n - (8 - m)) < 2 ^ (8 - m) := div_pow_lt hv (by omega)
        have h2 : (256 : Nat) = 2 ^ m * 2 ^ (8 - m) := by
          rw [← Nat.pow_add, show m + (8 - m) = 8 by omega]
        rw [h2]
        calc a * 2 ^ (8 - m) + v / 2 ^ (n - (8 - m)) < a * 2 ^ (8 - m) + 2 ^ (8 - m) := by omega
          _ = (a + 1) * 2 ^ (8 - m) := by ring
          _ ≤ 2 ^ m * 2 ^ (8 - m) := Nat.mul_le_mul_right _ ha
      obtain ⟨c, k, out', h1, h2, h3, h4⟩ :=
        @ih (n - (8 - m)) (by omega) 0 0 (v % 2 ^ (n - (8 - m))) (by omega)
          (by simp) (by omega) (Nat.mod_lt _ (Nat.two_pow_pos _)) (Or.inl rfl)
          (out ++ [u8 (a * 2 ^ (8 - m) + v / 2 ^ (n - (8 - m)))])
      refine ⟨c, k, out', h1, h2, h3, ?_⟩
      rw [h4, bytesBits_snoc _ hx]
      have e8 : bits 8 (a * 2 ^ (8 - m) + v / 2 ^ (n - (8 - m))) =
          bits m a ++ bits (8 - m) (v / 2 ^ (n - (8 - m))) := by
        rw [← bits_append m (8 - m) (div_pow_lt hv (by omega)), show m + (8 - m) = 8 by omega]
      rw [e8, bits_split v (show 8 - m ≤ n by omega)]
      simp
    · rw [if_neg h8]
      have hm0 : m = 0 := by omega
      subst hm0
      exact ⟨v, n, out, rfl, by omega, hv, by simp⟩

theorem encodeStep_spec {a m : Nat} (hm : m ≤ 7) (ha : a < 2 ^ m) (out : Bytes) (b : UInt8) :
    ∃ c k out', encodeStep (a, m) out b = .ok ((c, k), out') ∧ k ≤ 7 ∧ c < 2 ^ k ∧
      bytesBits out' ++ bits k c = bytesBits out ++ bits m a ++ huffCode b.toNat := by
  obtain ⟨n, v, hmem⟩ := huffTable_exists (s := b.toNat) (by have := b.toNat_lt; omega)
  obtain ⟨h5, h30, hv⟩ := huffTable_bounds hmem
  unfold encodeStep
  rw [encodeTableAt_eq hmem, Res.ok_bind, huffCode_eq hmem]
  simp only
  by_cases h : m + n < 8
  · rw [if_pos h, fillRecord_eq hm ha h30 hv]
    have hf : min (8 - m) n = n := by omega
    rw [hf, Res.ok_bind, Res.pure_eq]
    simp only [Nat.sub_self, Nat.pow_zero, Nat.div_one]
    refine ⟨_, _, out, rfl, by omega, ?_, ?_⟩
    · calc a * 2 ^ n + v < a * 2 ^ n + 2 ^ n := by omega
        _ = (a + 1) * 2 ^ n := by ring
        _ ≤ 2 ^ m * 2 ^ n := Nat.mul_le_mul_right _ ha
        _ = 2 ^ (m + n) := by rw [Nat.pow_add]
    · rw [bits_append m n hv]; simp
  · rw [if_neg h]
    exact encodeLoop_spec hm ha h30 hv (Or.inr (by omega)) out

theorem encodeAll_spec (s : Bytes) {a m : Nat} (hm : m ≤ 7) (ha : a < 2 ^ m) (out : Bytes) :
    ∃ c k out', encodeAll (a, m) out s = .ok ((c, k), out') ∧ k ≤ 7 ∧ c < 2 ^ k ∧
      bytesBits out' ++ bits k c =
        bytesBits out ++ bits m a ++ s.flatMap fun b => huffCode b.toNat := by
  induction s generalizing a m out with
  | nil => exact ⟨a, m, out, rfl, hm, ha, by simp⟩
  | cons b bs ih =>
      obtain ⟨c, k, out', h1, h2, h3, h4⟩ := encodeStep_spec hm ha out b
      obtain ⟨c', k', out'', g1, g2, g3, g4⟩ := ih h2 h3 out'
      refine ⟨c', k', out'', ?_, g2, g3, ?_⟩
      · rw [encodeAll, h1, Res.ok_bind]
        exact g1
      · rw [g4, h4]; simp

theorem mapSize_encodeTable : mapSize encodeTable - 1 = eos := by decide +kernel

theorem huffTable_eos : (eos, 30, 2 ^ 30 - 1) ∈ huffTable := by
  rw [mem_huffTable]; decide +kernel

/-- Main fact about the encoder. -/
theorem encode_spec (s : Bytes) :
    ∃ out p, encode s = .ok out ∧ p < 8 ∧
      bytesBits out = (s.flatMap fun b => huffCode b.toNat) ++ List.replicate p true := by
  obtain ⟨c, k, out, h1, h2, h3, h4⟩ := encodeAll_spec s (a := 0) (m := 0) (by omega) (by simp) []
  simp only [bytesBits_nil, bits_zero_len, List.nil_append] at h4
  unfold encode
  rw [h1, Res.ok_bind]
  simp only
  by_cases hk : k > 0
  · rw [if_pos hk, mapSize_encodeTable, encodeTableAt_eq huffTable_eos, Res.ok_bind]
    simp only
    rw [shrU32_ok (by omega), Res.ok_bind, shlU32_ok (by omega)
      (pow_lt_32 (mul_pow_lt h3) (by omega)), Res.ok_bind, Res.pure_eq]
    have e : (2 ^ 30 - 1) / 2 ^ (30 - (8 - k)) = 2 ^ (8 - k) - 1 := by
      have : k = 1 ∨ k = 2 ∨ k = 3 ∨ k = 4 ∨ k = 5 ∨ k = 6 ∨ k = 7 := by omega
      rcases this with rfl | rfl | rfl | rfl | rfl | rfl | rfl <;> rfl
    have hp : 2 ^ (8 - k) - 1 < 2 ^ (8 - k) := by
      have := Nat.two_pow_pos (8 - k); omega
    refine ⟨_, 8 - k, rfl, by omega, ?_⟩
    rw [e, or_low _ hp]
    have hx : c * 2 ^ (8 - k) + (2 ^ (8 - k) - 1) < 256 := by
      have h2 : (256 : Nat) = 2 ^ k * 2 ^ (8 - k) := by
        rw [← Nat.pow_add, show k + (8 - k) = 8 by omega]
      rw [h2]
      calc c * 2 ^ (8 - k) + (2 ^ (8 - k) - 1) < c * 2 ^ (8 - k) + 2 ^ (8 - k) := by omega
        _ = (c + 1) * 2 ^ (8 - k) := by ring
        _ ≤ 2 ^ k * 2 ^ (8 - k) := Nat.mul_le_mul_right _ h3
    have := bits_append k (8 - k) (x := c) hp
    rw [show k + (8 - k) = 8 by omega] at this
    rw [bytesBits_snoc _ hx, this, ← List.append_assoc, h4, bits_ones]
  · rw [if_neg hk]
    have : k = 0 := by omega
    subst this
    refine ⟨out, 0, rfl, by omega, ?_⟩
    rw [← h4]; simp

end Mh2c
