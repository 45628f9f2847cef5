/-
Helper lemmas about the integer representation.
-/
import Mathlib.Tactic.Ring
import Mathlib.Tactic.Linarith
import Verif.Model.IntRep
import Verif.Spec.Int

namespace Mh2c

open Rfc

theorem and_127 (x : Nat) : x &&& 127 = x % 128 := Nat.and_two_pow_sub_one_eq_mod x 7

theorem and_mask (x n : Nat) : x &&& (2 ^ n - 1) = x % 2 ^ n := Nat.and_two_pow_sub_one_eq_mod x n

theorem and_128 (b : UInt8) : (b.toNat &&& 128 = 128) ↔ b.toNat ≥ 128 := by
  have h : ∀ x < 256, (x &&& 128 = 128 ↔ x ≥ 128) := by decide +kernel
  exact h _ b.toNat_lt

/-! ### The specification -/

theorem intLoop_length {bs : List UInt8} {m i v : Nat} {rest : List UInt8}
    (h : intLoop bs m i = some (v, rest)) :
    rest.length < bs.length ∧ rest = bs.drop (bs.length - rest.length) := by
  induction bs generalizing m i with
  | nil => simp [intLoop] at h
  | cons b bs ih =>
      rw [intLoop] at h
      split at h
      · obtain ⟨h1, h2⟩ := ih h
        refine ⟨by simp; omega, ?_⟩
        rw [List.length_cons, show bs.length + 1 - rest.length = (bs.length - rest.length) + 1 by omega,
          List.drop_succ_cons]
        exact h2
      · simp only [Option.some.injEq, Prod.mk.injEq] at h
        obtain ⟨-, rfl⟩ := h
        simp

theorem intLoop_bounds {bs : List UInt8} {m i v : Nat} {rest : List UInt8}
    (h : intLoop bs m i = some (v, rest)) :
    ∃ t, v = i + t * 2 ^ m ∧ t < 128 ^ (bs.length - rest.length) := by
  induction bs generalizing m i with
  | nil => simp [intLoop] at h
  | cons b bs ih =>
      rw [intLoop] at h
      have hg : b.toNat % 128 < 128 := Nat.mod_lt _ (by omega)
      split at h
      · obtain ⟨t, h1, h2⟩ := ih h
        have hl := (intLoop_length h).1
        refine ⟨b.toNat % 128 + 128 * t, ?_, ?_⟩
        · rw [h1, Nat.pow_add]; ring
        · rw [List.length_cons, show bs.length + 1 - rest.length = (bs.length - rest.length) + 1 by omega,
            Nat.pow_succ]
          omega
      · simp only [Option.some.injEq, Prod.mk.injEq] at h
        obtain ⟨rfl, rfl⟩ := h
        exact ⟨_, rfl, by simpa using hg⟩

theorem intLoop_append {bs : List UInt8} {m i v : Nat} {rest : List UInt8}
    (h : intLoop bs m i = some (v, rest)) (more : List UInt8) :
    intLoop (bs ++ more) m i = some (v, rest ++ more) := by
  induction bs generalizing m i with
  | nil => simp [intLoop] at h
  | cons b bs ih =>
      rw [intLoop] at h
      rw [List.cons_append, intLoop]
      split at h
      · rename_i hb; rw [if_pos hb]; exact ih h
      · rename_i hb; rw [if_neg hb]
        simp only [Option.some.injEq, Prod.mk.injEq] at h
        obtain ⟨rfl, rfl⟩ := h
        rfl

theorem intDecode_append {n : Nat} {bs : List UInt8} {v : Nat} {rest : List UInt8}
    (h : intDecode n bs = some (v, rest)) (more : List UInt8) :
    intDecode n (bs ++ more) = some (v, rest ++ more) := by
  match bs with
  | [] => simp [intDecode] at h
  | b :: bs =>
    rw [intDecode] at h
    rw [List.cons_append, intDecode]
    split at h
    · rename_i hb; rw [if_pos hb]
      simp only [Option.some.injEq, Prod.mk.injEq] at h
      obtain ⟨rfl, rfl⟩ := h
      rfl
    · rename_i hb; rw [if_neg hb]; exact intLoop_append h more

theorem intDecode_length {n : Nat} {bs : List UInt8} {v : Nat} {rest : List UInt8}
    (h : intDecode n bs = some (v, rest)) :
    rest.length < bs.length ∧ rest = bs.drop (bs.length - rest.length) := by
  match bs with
  | [] => simp [intDecode] at h
  | b :: bs =>
    rw [intDecode] at h
    split at h
    · simp only [Option.some.injEq, Prod.mk.injEq] at h
      obtain ⟨-, rfl⟩ := h
      simp
    · obtain ⟨h1, h2⟩ := intLoop_length h
      refine ⟨by simp; omega, ?_⟩
      rw [List.length_cons, show bs.length + 1 - rest.length = (bs.length - rest.length) + 1 by omega,
        List.drop_succ_cons]
      exact h2

/-- Value bound by the number of octets used. -/
theorem intDecode_bounds {n : Nat} {bs : List UInt8} {v : Nat} {rest : List UInt8}
    (h : intDecode n bs = some (v, rest)) :
    (v < 2 ^ n - 1 ∧ bs.length - rest.length = 1) ∨
    (2 ^ n - 1 ≤ v ∧ 2 ≤ bs.length - rest.length ∧
      v - (2 ^ n - 1) < 128 ^ (bs.length - rest.length - 1)) := by
  match bs with
  | [] => simp [intDecode] at h
  | b :: bs =>
    rw [intDecode] at h
    split at h
    · rename_i hb
      simp only [Option.some.injEq, Prod.mk.injEq] at h
      obtain ⟨rfl, rfl⟩ := h
      left; exact ⟨hb, by simp⟩
    · rename_i hb
      right
      have hlt : b.toNat % 2 ^ n < 2 ^ n := Nat.mod_lt _ (Nat.pow_pos (by omega))
      have heq : b.toNat % 2 ^ n = 2 ^ n - 1 := by omega
      obtain ⟨t, h1, h2⟩ := intLoop_bounds h
      have hl := (intLoop_length h).1
      rw [heq] at h1
      refine ⟨by omega, by simp; omega, ?_⟩
      rw [List.length_cons, show bs.length + 1 - rest.length - 1 = bs.length - rest.length by omega, h1]
      simpa using h2

/-! ### Encoding -/

theorem intLoop_encodeIntTail (t m i : Nat) (rest : List UInt8) :
    intLoop (encodeIntTail t ++ rest) m i = some (i + t * 2 ^ m, rest) := by
  induction t using Nat.strong_induction_on generalizing m i with
  | _ t ih =>
    rw [encodeIntTail]
    split
    · rename_i ht
      have e1 : (u8 (t % 128 + 128)).toNat = t % 128 + 128 := by
        simp; omega
      rw [List.cons_append, intLoop, e1, if_pos (by omega), ih (t / 128) (by omega)]
      have e2 : (t % 128 + 128) % 128 = t % 128 := by omega
      rw [e2, Nat.pow_add]
      congr 2
      conv_rhs => rw [← Nat.div_add_mod t 128]
      ring
    · rename_i ht
      have e1 : (u8 t).toNat = t := by simp; omega
      rw [List.cons_append, List.nil_append, intLoop, e1, if_neg (by omega), Nat.mod_eq_of_lt (by omega)]

theorem encodeIntTail_ne_nil (t : Nat) : encodeIntTail t ≠ [] := by
  rw [encodeIntTail]; split <;> simp

/-- Length of the tail: least number of base-128 digits. -/
theorem encodeIntTail_length (t k : Nat) (hk : 1 ≤ k) :
    (encodeIntTail t).length ≤ k ↔ t < 128 ^ k := by
  induction t using Nat.strong_induction_on generalizing k with
  | _ t ih =>
    rw [encodeIntTail]
    split
    · rename_i ht
      rw [List.length_cons]
      match k, hk with
      | 1, _ =>
        have : 0 < (encodeIntTail (t / 128)).length := List.length_pos_iff.mpr (encodeIntTail_ne_nil _)
        constructor
        · intro h; omega
        · intro h; omega
      | k + 2, _ =>
        have := ih (t / 128) (by omega) (k + 1) (by omega)
        rw [show (encodeIntTail (t / 128)).length + 1 ≤ k + 2 ↔ (encodeIntTail (t / 128)).length ≤ k + 1 by omega,
          this, Nat.pow_succ 128 (k + 1)]
        omega
    · rename_i ht
      constructor
      · intro _
        calc t < 128 ^ 1 := by omega
          _ ≤ 128 ^ k := Nat.pow_le_pow_right (by omega) hk
      · intro _; simpa using hk

theorem encodeIntegerValue_ne_nil (n v : Nat) : encodeIntegerValue n v ≠ [] := by
  unfold encodeIntegerValue
  simp only
  split <;> simp

/-- First octet of an encoded integer. -/
theorem encodeIntegerValue_cons (n v : Nat) (hn : n ≤ 8) :
    ∃ b bs, encodeIntegerValue n v = b :: bs ∧ b.toNat = min v (2 ^ n - 1) ∧
      bs = (if v < 2 ^ n - 1 then [] else encodeIntTail (v - (2 ^ n - 1))) := by
  have h8 : (2 : Nat) ^ n ≤ 2 ^ 8 := Nat.pow_le_pow_right (by omega) hn
  unfold encodeIntegerValue
  by_cases h : v < 2 ^ n - 1
  · refine ⟨u8 v, [], by simp [h], ?_, by simp [h]⟩
    rw [UInt8.toNat_ofNat']
    omega
  · refine ⟨u8 (2 ^ n - 1), encodeIntTail (v - (2 ^ n - 1)), by simp [h], ?_, by simp [h]⟩
    rw [UInt8.toNat_ofNat']
    have : 0 < (2 : Nat) ^ n := Nat.pow_pos (by omega)
    omega

theorem or_high (b hi : UInt8) (n : Nat) (hb : b.toNat < 2 ^ n) (hhi : hi.toNat % 2 ^ n = 0) :
    (b ||| hi).toNat % 2 ^ n = b.toNat := by
  rw [UInt8.toNat_or, Nat.or_mod_two_pow, hhi, Nat.mod_eq_of_lt hb, Nat.or_zero]

/-- The RFC decoding of an encoded integer with any bits above the prefix. -/
theorem intDecode_encode (n v : Nat) (hn : n ≤ 8) (hi : UInt8) (hhi : hi.toNat % 2 ^ n = 0)
    (b : UInt8) (bs rest : List UInt8) (h : encodeIntegerValue n v = b :: bs) :
    intDecode n ((b ||| hi) :: bs ++ rest) = some (v, rest) := by
  obtain ⟨b', bs', h1, h2, h3⟩ := encodeIntegerValue_cons n v hn
  rw [h1] at h
  injection h with h4 h5
  subst h4 h5
  have hpos : 0 < (2 : Nat) ^ n := Nat.pow_pos (by omega)
  rw [List.cons_append, intDecode, or_high _ _ _ (by omega) hhi, h2, h3]
  by_cases hv : v < 2 ^ n - 1
  · rw [if_pos (by omega), if_pos hv, Nat.min_eq_left (by omega)]; rfl
  · rw [if_neg (by omega), if_neg hv, intLoop_encodeIntTail, Nat.min_eq_right (by omega)]
    congr 2
    omega

/-! ### Decoding -/

theorem decodeIntLoop_ok_or_ub (bs : Bytes) (m acc : Nat) :
    (∃ v, decodeIntLoop bs m acc = .ok v) ∨ (decodeIntLoop bs m acc).IsUb := by
  induction bs generalizing m acc with
  | nil => right; exact ⟨_, rfl⟩
  | cons b bs ih =>
      rw [decodeIntLoop]
      split
      · right; exact ⟨_, rfl⟩
      · split
        · right; exact ⟨_, rfl⟩
        · simp only
          split
          · exact ih _ _
          · left; exact ⟨_, rfl⟩

theorem decodeIntegerValue_ok_or_ub (n : Nat) (bs : Bytes) :
    (∃ v, decodeIntegerValue n bs = .ok v) ∨ (decodeIntegerValue n bs).IsUb := by
  match bs with
  | [] => right; exact ⟨_, rfl⟩
  | b :: bs =>
    rw [decodeIntegerValue]
    split
    · left; exact ⟨_, rfl⟩
    · exact decodeIntLoop_ok_or_ub _ _ _

theorem decodeIntLoop_spec (bs : Bytes) (j acc acc0 v : Nat) (hj : j ≤ 5) (h0 : acc0 ≤ 255)
    (hlo : acc0 ≤ acc) (hhi : acc < acc0 + 2 ^ (7 * j)) :
    decodeIntLoop bs (7 * j) acc = .ok v ↔
      ∃ rest, intLoop bs (7 * j) acc = some (v, rest) ∧ bs.length - rest.length + j ≤ 5 ∧
        v < acc0 + 2 ^ 31 := by
  induction bs generalizing j acc with
  | nil => simp [decodeIntLoop, intLoop]
  | cons b bs ih =>
      rw [decodeIntLoop, intLoop, and_127]
      have hg : b.toNat % 128 < 128 := Nat.mod_lt _ (by omega)
      generalize b.toNat % 128 = g at hg
      by_cases h5 : j = 5
      · subst h5
        rw [if_pos (by omega)]
        simp only [reduceCtorEq, false_iff, not_exists, not_and]
        intro rest hr hlen
        exfalso
        have : rest.length < (b :: bs).length := by
          split at hr
          · have := (intLoop_length hr).1; simp; omega
          · simp only [Option.some.injEq, Prod.mk.injEq] at hr
            obtain ⟨-, rfl⟩ := hr
            simp
        omega
      · have hj4 : j ≤ 4 := by omega
        rw [if_neg (by omega)]
        have hcase : j = 0 ∨ j = 1 ∨ j = 2 ∨ j = 3 ∨ j = 4 := by omega
        by_cases hov : g * 2 ^ (7 * j) ≥ 2 ^ 31
        · rw [if_pos hov]
          simp only [reduceCtorEq, false_iff, not_exists, not_and]
          intro rest hr _
          have : acc + g * 2 ^ (7 * j) ≤ v := by
            split at hr
            · obtain ⟨t, h1, -⟩ := intLoop_bounds hr; omega
            · simp only [Option.some.injEq, Prod.mk.injEq] at hr
              omega
          omega
        · rw [if_neg hov]
          have hnext : acc + g * 2 ^ (7 * j) < acc0 + 2 ^ (7 * (j + 1)) := by
            rcases hcase with rfl | rfl | rfl | rfl | rfl <;> norm_num at hhi ⊢ <;> omega
          have h31 : acc + g * 2 ^ (7 * j) < acc0 + 2 ^ 31 := by
            rcases hcase with rfl | rfl | rfl | rfl | rfl <;> norm_num at hhi hov ⊢ <;> omega
          simp only
          rw [Nat.mod_eq_of_lt (by omega)]
          by_cases hc : b.toNat ≥ 128
          · rw [if_pos ((and_128 b).2 hc), if_pos hc, show 7 * j + 7 = 7 * (j + 1) by ring]
            rw [ih (j + 1) _ (by omega) (by omega) hnext]
            constructor
            · rintro ⟨rest, h1, h2, h3⟩
              have := (intLoop_length h1).1
              exact ⟨rest, h1, by simp; omega, h3⟩
            · rintro ⟨rest, h1, h2, h3⟩
              have := (intLoop_length h1).1
              simp only [List.length_cons] at h2
              exact ⟨rest, h1, by omega, h3⟩
          · rw [if_neg (fun h => hc ((and_128 b).1 h)), if_neg hc]
            constructor
            · intro h
              injection h with h
              subst h
              exact ⟨bs, rfl, by simp; omega, h31⟩
            · rintro ⟨rest, h1, -, -⟩
              simp only [Option.some.injEq, Prod.mk.injEq] at h1
              rw [h1.1]

/-- Exact behaviour of `decode_integer_value`: the RFC value, if the integer has at most five
octets after the prefix and exceeds the prefix maximum by less than 2^31. -/
theorem decodeIntegerValue_spec (n : Nat) (hn : n ≤ 8) (bs : Bytes) (v : Nat) :
    decodeIntegerValue n bs = .ok v ↔
      ∃ rest, intDecode n bs = some (v, rest) ∧ bs.length - rest.length ≤ 6 ∧
        v < 2 ^ n - 1 + 2 ^ 31 := by
  match bs with
  | [] => simp [decodeIntegerValue, intDecode]
  | b :: bs =>
    rw [decodeIntegerValue, intDecode]
    rw [and_mask]
    have hpos : 0 < (2 : Nat) ^ n := Nat.pow_pos (by omega)
    have hlt : b.toNat % 2 ^ n < 2 ^ n := Nat.mod_lt _ hpos
    by_cases hb : b.toNat % 2 ^ n < 2 ^ n - 1
    · rw [if_pos hb, if_pos hb]
      constructor
      · intro h; injection h with h; subst h
        exact ⟨bs, rfl, by simp, by omega⟩
      · rintro ⟨rest, h, -, -⟩
        simp only [Option.some.injEq, Prod.mk.injEq] at h
        rw [h.1]
    · rw [if_neg hb, if_neg hb]
      have heq : b.toNat % 2 ^ n = 2 ^ n - 1 := by omega
      rw [heq]
      have h8 : (2 : Nat) ^ n ≤ 2 ^ 8 := Nat.pow_le_pow_right (by omega) hn
      have := decodeIntLoop_spec bs 0 (2 ^ n - 1) (2 ^ n - 1) v (by omega) (by omega) le_rfl (by simp)
      simp only [Nat.mul_zero] at this
      rw [this]
      constructor
      · rintro ⟨rest, h1, h2, h3⟩
        have := (intLoop_length h1).1
        exact ⟨rest, h1, by simp; omega, h3⟩
      · rintro ⟨rest, h1, h2, h3⟩
        have := (intLoop_length h1).1
        simp only [List.length_cons] at h2
        exact ⟨rest, h1, by omega, h3⟩

/-- Length of an encoded integer below the decoder's limit: at most five octets after the prefix. -/
theorem encodeIntegerValue_length_le (n v : Nat) (hn : n ≤ 8) (hv : v < 2 ^ n - 1 + 2 ^ 31) :
    (encodeIntegerValue n v).length ≤ 6 := by
  obtain ⟨b, bs, h1, -, h3⟩ := encodeIntegerValue_cons n v hn
  rw [h1, h3, List.length_cons]
  split
  · simp
  · have := (encodeIntTail_length (v - (2 ^ n - 1)) 5 (by omega)).2 (by norm_num; omega)
    omega

/-- The decoder on an encoded integer with any bits above the prefix, in front of any octets. -/
theorem decodeIntegerValue_encode (n v : Nat) (hn : n ≤ 8) (hv : v < 2 ^ n - 1 + 2 ^ 31)
    (hi : UInt8) (hhi : hi.toNat % 2 ^ n = 0) (b : UInt8) (bs rest : Bytes)
    (h : encodeIntegerValue n v = b :: bs) :
    decodeIntegerValue n ((b ||| hi) :: bs ++ rest) = .ok v := by
  rw [decodeIntegerValue_spec n hn]
  refine ⟨rest, intDecode_encode n v hn hi hhi b bs rest h, ?_, hv⟩
  have := encodeIntegerValue_length_le n v hn hv
  rw [h] at this
  simp at this ⊢
  omega

/-- Re-encoding a decoded value never needs more octets than were read. -/
theorem encode_length_le_used {n : Nat} (hn : n ≤ 8) {bs : List UInt8} {v : Nat}
    {rest : List UInt8} (h : intDecode n bs = some (v, rest)) :
    (encodeIntegerValue n v).length ≤ bs.length - rest.length := by
  obtain ⟨b, cs, h1, -, h3⟩ := encodeIntegerValue_cons n v hn
  have hl := (intDecode_length h).1
  rw [h1, h3, List.length_cons]
  rcases intDecode_bounds h with ⟨h4, h5⟩ | ⟨h4, h5, h6⟩
  · rw [if_pos h4]; simp; omega
  · rw [if_neg (by omega)]
    have := (encodeIntTail_length (v - (2 ^ n - 1)) (bs.length - rest.length - 1) (by omega)).2 h6
    omega

end Mh2c
