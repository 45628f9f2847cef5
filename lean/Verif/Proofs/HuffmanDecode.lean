/-
Helper lemmas: the Huffman decoder splits its input into codes.
-/
import Verif.Proofs.HuffmanEncode

namespace Mh2c

open Rfc Huffman

/-! ### Prefix-freeness on bit lists -/

theorem huffCode_prefix_free {s t : Nat} (hs : s < 257) (ht : t < 257) {l : List Bool}
    (h1 : huffCode s <+: l) (h2 : huffCode t <+: l) : s = t := by
  have key : ∀ {s t : Nat}, s < 257 → t < 257 → huffCode s <+: huffCode t → s = t := by
    intro s t hs ht h
    obtain ⟨n, v, hm⟩ := huffTable_exists hs
    obtain ⟨k, w, hk⟩ := huffTable_exists ht
    obtain ⟨-, -, hv⟩ := huffTable_bounds hm
    obtain ⟨-, -, hw⟩ := huffTable_bounds hk
    rw [huffCode_eq hm, huffCode_eq hk, bits_prefix_iff hv hw] at h
    obtain ⟨s0, n0, v0, -, hall⟩ := code_of hw
    have e1 := (hall _ _ _ hm h.1).1 h.2
    have e2 := (hall _ _ _ hk le_rfl).1 (by simp)
    rw [← e2] at e1
    exact (Prod.mk.inj e1).1
  rcases Nat.le_total (huffCode s).length (huffCode t).length with h | h
  · exact key hs ht (List.prefix_of_prefix_length_le h1 h2 h)
  · exact (key ht hs (List.prefix_of_prefix_length_le h2 h1 h)).symm

theorem huffCode_ne_nil {s : Nat} (hs : s < 257) : huffCode s ≠ [] := by
  obtain ⟨n, v, hm⟩ := huffTable_exists hs
  rw [huffCode_eq hm]
  intro h
  have := congrArg List.length h
  have h5 := (huffTable_bounds hm).1
  simp at this
  omega

/-- `l` is a sequence of codes (of `syms`, EOS allowed) followed by fewer than eight bits that do
not start with a code. -/
def HuffParse (l : List Bool) (syms : List Nat) (rest : List Bool) : Prop :=
  l = syms.flatMap huffCode ++ rest ∧ rest.length < 8 ∧ (∀ s ∈ syms, s < 257) ∧
    ∀ s < 257, ¬ huffCode s <+: rest

theorem HuffParse.cons {l : List Bool} {syms : List Nat} {rest : List Bool} {s : Nat}
    (hs : s < 257) (h : HuffParse l syms rest) : HuffParse (huffCode s ++ l) (s :: syms) rest := by
  obtain ⟨h1, h2, h3, h4⟩ := h
  refine ⟨by simp [h1], h2, ?_, h4⟩
  intro t ht
  rcases List.mem_cons.1 ht with rfl | ht
  · exact hs
  · exact h3 t ht

theorem HuffParse.uncons {l : List Bool} {syms : List Nat} {rest : List Bool} {s : Nat}
    (hs : s < 257) (h : HuffParse (huffCode s ++ l) syms rest) :
    ∃ syms', syms = s :: syms' ∧ HuffParse l syms' rest := by
  obtain ⟨h1, h2, h3, h4⟩ := h
  cases syms with
  | nil =>
      refine (h4 s hs ?_).elim
      rw [List.flatMap_nil, List.nil_append] at h1
      rw [← h1]
      exact List.prefix_append _ _
  | cons t ts =>
      have ht := h3 t (by simp)
      have : s = t := by
        refine huffCode_prefix_free hs ht (List.prefix_append _ l) ?_
        rw [h1, List.flatMap_cons, List.append_assoc]
        exact List.prefix_append _ _
      subst this
      refine ⟨ts, rfl, ?_, h2, fun u hu => h3 u (by simp [hu]), h4⟩
      rw [List.flatMap_cons, List.append_assoc] at h1
      exact List.append_cancel_left h1

theorem HuffParse.unique {l : List Bool} {s1 s2 : List Nat} {r1 r2 : List Bool}
    (h1 : HuffParse l s1 r1) (h2 : HuffParse l s2 r2) : s1 = s2 ∧ r1 = r2 := by
  induction s1 generalizing l s2 with
  | nil =>
      cases s2 with
      | nil =>
          refine ⟨rfl, ?_⟩
          have e1 := h1.1
          have e2 := h2.1
          simp only [List.flatMap_nil, List.nil_append] at e1 e2
          rw [← e1, e2]
      | cons t ts =>
          refine (h1.2.2.2 t (h2.2.2.1 t (by simp)) ?_).elim
          have e1 := h1.1
          rw [List.flatMap_nil, List.nil_append] at e1
          rw [← e1, h2.1, List.flatMap_cons, List.append_assoc]
          exact List.prefix_append _ _
  | cons s ss ih =>
      have hs := h1.2.2.1 s (by simp)
      have e1 := h1.1
      rw [List.flatMap_cons, List.append_assoc] at e1
      rw [e1] at h1 h2
      obtain ⟨ss', hss, g1⟩ := h1.uncons hs
      obtain ⟨s2', rfl, g2⟩ := h2.uncons hs
      simp only [List.cons.injEq, true_and] at hss
      subst hss
      obtain ⟨rfl, hr⟩ := ih g1 g2
      exact ⟨rfl, hr⟩

/-! ### Arithmetic of the decoder state -/

theorem split_div {X D q s : Nat} (hD : D < 2 ^ q) :
    (X * 2 ^ q + D) / 2 ^ (s + q) = X / 2 ^ s := by
  rw [Nat.pow_add, Nat.mul_comm (2 ^ s), ← Nat.div_div_eq_div_mul, Nat.mul_comm X,
    Nat.mul_add_div (Nat.two_pow_pos q), Nat.div_eq_of_lt hD, Nat.add_zero]

theorem split_mod {X D q s : Nat} (hD : D < 2 ^ q) :
    (X * 2 ^ q + D) % 2 ^ (s + q) = X % 2 ^ s * 2 ^ q + D := by
  rw [Nat.pow_add, Nat.mul_comm (2 ^ s), Nat.mod_mul, Nat.mul_comm X, Nat.mul_add_mod,
    Nat.mod_eq_of_lt hD, Nat.mul_add_div (Nat.two_pow_pos q), Nat.div_eq_of_lt hD, Nat.add_zero]
  ring

theorem constructIntegerLoop_ok (left : Nat) (v : Bytes) (acc : Nat) (h4 : left ≤ 4)
    (hv : left ≤ v.length) (hacc : acc % 256 ^ left = 0) :
    constructIntegerLoop left v acc = .ok (acc + beValue (v.take left)) := by
  induction left generalizing v acc with
  | zero => simp [constructIntegerLoop]
  | succ k ih =>
      match v, hv with
      | b :: bs, hv =>
        have hk : k ≤ bs.length := by simpa using hv
        have hb : b.toNat < 256 := b.toNat_lt
        have hp : (256 : Nat) ^ k = 2 ^ (k * 8) := by rw [Nat.mul_comm, Nat.pow_mul]
        have hle : b.toNat * 256 ^ k < 256 ^ (k + 1) := by
          rw [Nat.pow_succ, Nat.mul_comm]
          exact Nat.mul_lt_mul_of_pos_left hb (Nat.pow_pos (by omega))
        have hshl : shlInt b.toNat (k * 8) = .ok (b.toNat * 256 ^ k) := by
          unfold shlInt
          rw [← hp, if_pos]
          refine ⟨by omega, lt_of_lt_of_le hle ?_⟩
          rw [show (2 : Nat) ^ 32 = 256 ^ 4 by norm_num]
          exact Nat.pow_le_pow_right (by omega) (by omega)
        have hor : acc ||| b.toNat * 256 ^ k = acc + b.toNat * 256 ^ k := by
          obtain ⟨q, hq⟩ := Nat.dvd_of_mod_eq_zero hacc
          rw [hq, Nat.mul_comm]
          rw [pow256 (k + 1)] at hle ⊢
          exact or_low q hle
        rw [constructIntegerLoop, hshl, Res.ok_bind, hor, ih bs _ (by omega) hk ?_]
        · rw [List.take_succ_cons, beValue_cons, List.length_take, Nat.min_eq_left hk]
          congr 1; ring
        · have h0 : acc % 256 ^ k = 0 := by
            apply Nat.mod_eq_zero_of_dvd
            exact dvd_trans (Nat.pow_dvd_pow 256 (Nat.le_succ k)) (Nat.dvd_of_mod_eq_zero hacc)
          rw [Nat.add_mul_mod_self_right, h0]

/-- Number denoted by carried bits followed by the octets `temp`. -/
def stVal (temp : Bytes) (a : Nat) : Nat := a * 2 ^ (8 * temp.length) + beValue temp

/-- Its number of bits. -/
def stLen (temp : Bytes) (m : Nat) : Nat := m + 8 * temp.length

theorem beValue_lt2 (v : Bytes) : beValue v < 2 ^ (8 * v.length) := by
  rw [← pow256]; exact beValue_lt v

theorem stVal_lt {temp : Bytes} {a m : Nat} (ha : a < 2 ^ m) :
    stVal temp a < 2 ^ stLen temp m := by
  unfold stVal stLen
  have := beValue_lt2 temp
  calc a * 2 ^ (8 * temp.length) + beValue temp
      < a * 2 ^ (8 * temp.length) + 2 ^ (8 * temp.length) := by omega
    _ = (a + 1) * 2 ^ (8 * temp.length) := by ring
    _ ≤ 2 ^ m * 2 ^ (8 * temp.length) := Nat.mul_le_mul_right _ ha
    _ = 2 ^ (m + 8 * temp.length) := by rw [Nat.pow_add]

theorem candidate_ok {temp : Bytes} {a m n : Nat} (hm : m ≤ 7) (ha : a < 2 ^ m) (h5 : 5 ≤ n)
    (h30 : n ≤ 30) (hn : n ≤ stLen temp m) :
    ∃ c k er, candidate temp (a, m) n = .ok (stVal temp a / 2 ^ (stLen temp m - n), (c, k), er) ∧
      er ≤ temp.length ∧ k ≤ 7 ∧ c < 2 ^ k ∧
      stVal (temp.drop er) c = stVal temp a % 2 ^ (stLen temp m - n) ∧
      stLen (temp.drop er) k = stLen temp m - n := by
  unfold candidate
  unfold stLen at hn
  simp only
  by_cases hlt : m < n
  · rw [if_pos hlt]
    generalize hr : (if (n - m) % 8 = 0 then (n - m) / 8 else (n - m) / 8 + 1) = r
    have hr1 : n - m ≤ 8 * r ∧ 8 * r ≤ n - m + 7 := by split at hr <;> omega
    have hrl : r ≤ temp.length := by omega
    have hr4 : r ≤ 4 := by omega
    generalize hs : r * 8 + m - n = s
    have hs7 : s ≤ 7 := by omega
    have hT : beValue (temp.take r) < 2 ^ (8 * r) := by
      have := beValue_lt2 (temp.take r)
      rwa [List.length_take, Nat.min_eq_left hrl] at this
    have hD : beValue (temp.drop r) < 2 ^ (8 * (temp.length - r)) := by
      have := beValue_lt2 (temp.drop r)
      rwa [List.length_drop] at this
    have hV : stVal temp a = (a * 2 ^ (8 * r) + beValue (temp.take r)) *
        2 ^ (8 * (temp.length - r)) + beValue (temp.drop r) := by
      unfold stVal
      have e1 : beValue temp = beValue (temp.take r) * 256 ^ (temp.length - r) +
          beValue (temp.drop r) := by
        conv_lhs => rw [← List.take_append_drop r temp]
        rw [beValue_append, List.length_drop]
      rw [e1, pow256, show 8 * temp.length = 8 * r + 8 * (temp.length - r) by omega, Nat.pow_add]
      ring
    have hL : stLen temp m - n = s + 8 * (temp.length - r) := by unfold stLen; omega
    have hconstr : constructInteger temp r = .ok (beValue (temp.take r)) := by
      unfold constructInteger
      rw [if_neg (by omega), constructIntegerLoop_ok r temp 0 hr4 hrl (by simp)]
      simp
    have h8r : (2 : Nat) ^ (8 * r) = 2 ^ (n - m) * 2 ^ s := by
      rw [← Nat.pow_add]; congr 1; omega
    have hTs : beValue (temp.take r) / 2 ^ s < 2 ^ (n - m) := by
      apply Nat.div_lt_of_lt_mul
      rw [Nat.mul_comm, ← h8r]; exact hT
    have hback : beValue (temp.take r) / 2 ^ s * 2 ^ s < 2 ^ 32 :=
      lt_of_le_of_lt (Nat.div_mul_le_self _ _) (pow_lt_32 hT (by omega))
    rw [hconstr, Res.ok_bind, shrU32_ok (by omega), Res.ok_bind, shlU32_ok (by omega) hback,
      Res.ok_bind, shlU32_ok (by omega) (pow_lt_32 (mul_pow_lt ha) (by omega)), Res.ok_bind,
      Res.pure_eq, or_low _ hTs, xor_high]
    refine ⟨beValue (temp.take r) % 2 ^ s, s, r, ?_, hrl, hs7, Nat.mod_lt _ (Nat.two_pow_pos s), ?_, ?_⟩
    · rw [hL, hV, split_div hD, h8r, ← Nat.mul_assoc,
        Nat.mul_comm (a * 2 ^ (n - m)) (2 ^ s), Nat.mul_add_div (Nat.two_pow_pos s)]
    · rw [hL, hV, split_mod hD, h8r, ← Nat.mul_assoc, Nat.mul_comm (a * 2 ^ (n - m)) (2 ^ s),
        Nat.mul_add_mod]
      unfold stVal
      rw [List.length_drop]
    · rw [hL]; unfold stLen; rw [List.length_drop]
  · rw [if_neg hlt]
    have hback : a / 2 ^ (m - n) * 2 ^ (m - n) < 2 ^ 32 :=
      lt_of_le_of_lt (Nat.div_mul_le_self _ _) (pow_lt_32 ha (by omega))
    have hL : stLen temp m - n = (m - n) + 8 * temp.length := by unfold stLen; omega
    rw [shrU32_ok (by omega), Res.ok_bind, shlU32_ok (by omega) hback, Res.ok_bind, Res.pure_eq,
      xor_high]
    refine ⟨a % 2 ^ (m - n), m - n, 0, ?_, by omega, by omega, Nat.mod_lt _ (Nat.two_pow_pos _), ?_, ?_⟩
    · rw [hL]; unfold stVal
      rw [split_div (beValue_lt2 temp)]
    · rw [hL]; unfold stVal
      rw [split_mod (beValue_lt2 temp), List.drop_zero]
    · rw [hL, List.drop_zero]; rfl

theorem candidate_short {temp : Bytes} {a m n : Nat} (hn : stLen temp m < n) :
    candidate temp (a, m) n = .throw .invalidArgument := by
  unfold candidate
  unfold stLen at hn
  simp only
  rw [if_pos (by omega)]
  generalize hr : (if (n - m) % 8 = 0 then (n - m) / 8 else (n - m) / 8 + 1) = r
  have hr1 : n - m ≤ 8 * r := by split at hr <;> omega
  have : constructInteger temp r = .throw .invalidArgument := by
    unfold constructInteger
    rw [if_pos (by omega)]
  rw [this, Res.throw_bind]

/-! ### The search loop -/

theorem decodeTable_bounds {n : Nat} {mp : List (Nat × Nat)} (h : (n, mp) ∈ decodeTable) :
    5 ≤ n ∧ n ≤ 30 := by
  have h1 : n ∈ decodeTable.map Prod.fst := List.mem_map_of_mem (f := Prod.fst) h
  rw [decodeTable_lengths] at h1
  have : ∀ k ∈ [5, 6, 7, 8, 10, 11, 12, 13, 14, 15, 19, 20, 21, 22, 23, 24, 25, 26, 27, 28, 30],
      5 ≤ k ∧ k ≤ 30 := by decide
  exact this n h1

theorem huffTable_length_mem {s n v : Nat} (h : (s, n, v) ∈ huffTable) :
    n ∈ decodeTable.map Prod.fst := by
  have h1 := eq_of_beq (List.all_eq_true.1 decodeTable_complete _ h)
  simp only at h1
  cases hm : decodeTable.lookup n with
  | none => rw [hm] at h1; simp at h1
  | some mp => exact List.mem_map_of_mem (f := Prod.fst) (lookup_mem hm)

/-- Facts about the position in the input: which code the remaining bits belong to. -/
structure Owner (temp : Bytes) (a m s n v : Nat) : Prop where
  mem : (s, n, v) ∈ huffTable
  only : ∀ t k w, (t, k, w) ∈ huffTable → k ≤ stLen temp m →
    (stVal temp a / 2 ^ (stLen temp m - k) = w ↔ (t, k, w) = (s, n, v))

theorem owner_exists {temp : Bytes} {a m : Nat} (ha : a < 2 ^ m) :
    ∃ s n v, Owner temp a m s n v := by
  obtain ⟨s, n, v, h1, h2⟩ := code_of (stVal_lt (temp := temp) ha)
  exact ⟨s, n, v, h1, h2⟩

theorem search_found {temp : Bytes} {a m s n v : Nat} (hm : m ≤ 7) (ha : a < 2 ^ m)
    (ho : Owner temp a m s n v) (hn : n ≤ stLen temp m) (tbl : List (Nat × List (Nat × Nat)))
    (hsub : ∀ p ∈ tbl, p ∈ decodeTable) (hsort : (tbl.map Prod.fst).Pairwise (· < ·))
    (hmem : n ∈ tbl.map Prod.fst) :
    ∃ c k er, search temp (a, m) tbl = .ok (some (.symbol s n er (c, k))) ∧
      er ≤ temp.length ∧ k ≤ 7 ∧ c < 2 ^ k ∧
      stVal (temp.drop er) c = stVal temp a % 2 ^ (stLen temp m - n) ∧
      stLen (temp.drop er) k = stLen temp m - n := by
  induction tbl with
  | nil => simp at hmem
  | cons p rest ih =>
      obtain ⟨k0, mp⟩ := p
      have hp : (k0, mp) ∈ decodeTable := hsub _ (by simp)
      obtain ⟨h5, h30⟩ := decodeTable_bounds hp
      simp only [List.map_cons, List.pairwise_cons, List.mem_cons] at hsort hmem
      have hk0 : k0 ≤ n := by
        rcases hmem with h | h
        · omega
        · exact le_of_lt (hsort.1 n h)
      have hnl : ¬ (temp.length = 0 ∧ m < k0) := by
        unfold stLen at hn; omega
      obtain ⟨c, k, er, h1, h2⟩ := candidate_ok hm ha h5 h30 (le_trans hk0 hn)
      rw [search, if_neg hnl, h1, Res.ok_bind]
      simp only
      by_cases he : k0 = n
      · subst he
        have hv := (ho.only _ _ _ ho.mem hn).2 rfl
        have : mp.lookup (stVal temp a / 2 ^ (stLen temp m - k0)) = some s := by
          rw [decodeTable_lookup hp, hv]; exact ho.mem
        rw [this]
        exact ⟨c, k, er, rfl, h2⟩
      · have hlk : mp.lookup (stVal temp a / 2 ^ (stLen temp m - k0)) = none := by
          cases hl : mp.lookup (stVal temp a / 2 ^ (stLen temp m - k0)) with
          | none => rfl
          | some t =>
              rw [decodeTable_lookup hp] at hl
              have := (ho.only _ _ _ hl (le_trans hk0 hn)).1 rfl
              exact (he (Prod.mk.inj (Prod.mk.inj this).2).1).elim
        rw [hlk]
        exact ih (fun q hq => hsub q (by simp [hq])) hsort.2
          (hmem.resolve_left fun h => he h.symm)

theorem search_short {temp : Bytes} {a m s n v : Nat} (hm : m ≤ 7) (ha : a < 2 ^ m)
    (ho : Owner temp a m s n v) (hn : stLen temp m < n) (tbl : List (Nat × List (Nat × Nat)))
    (hsub : ∀ p ∈ tbl, p ∈ decodeTable) (hsort : (tbl.map Prod.fst).Pairwise (· < ·))
    (hmem : n ∈ tbl.map Prod.fst) :
    search temp (a, m) tbl =
      if temp = [] then .ok (some .leftover) else .throw .invalidArgument := by
  induction tbl with
  | nil => simp at hmem
  | cons p rest ih =>
      obtain ⟨k0, mp⟩ := p
      have hp : (k0, mp) ∈ decodeTable := hsub _ (by simp)
      obtain ⟨h5, h30⟩ := decodeTable_bounds hp
      simp only [List.map_cons, List.pairwise_cons, List.mem_cons] at hsort hmem
      rw [search]
      by_cases hk : stLen temp m < k0
      · by_cases ht : temp = []
        · subst ht
          rw [if_pos ⟨rfl, by simpa [stLen] using hk⟩, if_pos rfl]
        · rw [if_neg (fun h => ht (List.length_eq_zero_iff.1 h.1)), candidate_short hk,
            Res.throw_bind, if_neg ht]
      · have hk' : k0 ≤ stLen temp m := by omega
        have hne : k0 ≠ n := by omega
        have hnl : ¬ (temp.length = 0 ∧ m < k0) := by
          unfold stLen at hk'; omega
        obtain ⟨c, k, er, h1, -⟩ := candidate_ok hm ha h5 h30 hk'
        rw [if_neg hnl, h1, Res.ok_bind]
        simp only
        have hlk : mp.lookup (stVal temp a / 2 ^ (stLen temp m - k0)) = none := by
          cases hl : mp.lookup (stVal temp a / 2 ^ (stLen temp m - k0)) with
          | none => rfl
          | some t =>
              rw [decodeTable_lookup hp] at hl
              have := (ho.only _ _ _ hl hk').1 rfl
              exact (hne (Prod.mk.inj (Prod.mk.inj this).2).1).elim
        rw [hlk]
        exact ih (fun q hq => hsub q (by simp [hq])) hsort.2
          (hmem.resolve_left fun h => hne h.symm)

theorem decodeTable_sorted : (decodeTable.map Prod.fst).Pairwise (· < ·) := by
  rw [decodeTable_lengths]; decide

/-! ### The main loop -/

theorem owner_not_prefix {temp : Bytes} {a m s n v : Nat} (ha : a < 2 ^ m)
    (ho : Owner temp a m s n v) (hn : stLen temp m < n) (t : Nat) (ht : t < 257) :
    ¬ huffCode t <+: bits (stLen temp m) (stVal temp a) := by
  intro h
  obtain ⟨k, w, hk⟩ := huffTable_exists ht
  rw [huffCode_eq hk, bits_prefix_iff (huffTable_bounds hk).2.2 (stVal_lt ha)] at h
  have := (ho.only _ _ _ hk h.1).1 h.2
  have := (Prod.mk.inj (Prod.mk.inj this).2).1
  omega

theorem decodeLoop_spec (L total decoded : Nat) (temp : Bytes) (a m : Nat) (out : Bytes)
    (hL : stLen temp m = L) (hm : m ≤ 7) (ha : a < 2 ^ m) (ht : decoded + L = total) :
    (∃ syms rest, HuffParse (bits L (stVal temp a)) syms rest ∧
      decodeLoop total decoded temp (a, m) out = .ok (out ++ syms.map u8)) ∨
    ((¬ ∃ syms rest, HuffParse (bits L (stVal temp a)) syms rest) ∧
      decodeLoop total decoded temp (a, m) out = .throw .invalidArgument) := by
  induction L using Nat.strong_induction_on generalizing decoded temp a m out with
  | _ L ih =>
    rw [decodeLoop]
    by_cases h0 : decoded < total
    · rw [if_pos h0]
      obtain ⟨s, n, v, ho⟩ := owner_exists (temp := temp) ha
      have hs := huffTable_lt ho.mem
      obtain ⟨h5, h30, hv⟩ := huffTable_bounds ho.mem
      by_cases hn : n ≤ stLen temp m
      · obtain ⟨c, k, er, h1, h2, h3, h4, h6, h7⟩ :=
          search_found hm ha ho hn decodeTable (fun _ h => h) decodeTable_sorted
            (huffTable_length_mem ho.mem)
        rw [h1]
        simp only
        have he : eraseFirst er temp = .ok (temp.drop er) := by
          unfold eraseFirst; rw [if_pos h2]
        rw [he]
        simp only
        rw [if_pos (by omega)]
        have hsplit : bits L (stVal temp a) = huffCode s ++ bits (L - n) (stVal (temp.drop er) c) := by
          rw [← hL, bits_split _ hn, (ho.only _ _ _ ho.mem hn).2 rfl, huffCode_eq ho.mem, h6]
        rcases ih (L - n) (by omega) (decoded + n) (temp.drop er) c k (out ++ [u8 s])
          (by rw [h7, hL]) h3 h4 (by omega) with ⟨syms, rest, g1, g2⟩ | ⟨g1, g2⟩
        · left
          refine ⟨s :: syms, rest, ?_, ?_⟩
          · rw [hsplit]; exact g1.cons hs
          · rw [g2]; simp
        · right
          refine ⟨?_, g2⟩
          rintro ⟨syms, rest, hp⟩
          rw [hsplit] at hp
          obtain ⟨syms', -, hp'⟩ := hp.uncons hs
          exact g1 ⟨syms', rest, hp'⟩
      · rw [search_short hm ha ho (by omega) decodeTable (fun _ h => h) decodeTable_sorted
            (huffTable_length_mem ho.mem)]
        have hno := owner_not_prefix ha ho (by omega : stLen temp m < n)
        by_cases hte : temp = []
        · subst hte
          have hmL : m = L := by simpa [stLen] using hL
          rw [if_pos rfl]
          simp only
          rw [if_pos (by omega), decodeLoop, if_neg (by omega)]
          left
          refine ⟨[], bits L (stVal [] a), ⟨by simp, by rw [bits_length]; omega, by simp, ?_⟩, by simp⟩
          rw [← hL]; exact hno
        · rw [if_neg hte]
          simp only
          right
          refine ⟨?_, trivial⟩
          rintro ⟨syms, rest, hp⟩
          cases syms with
          | nil =>
              have h1 := hp.1
              have h2 := hp.2.1
              rw [List.flatMap_nil, List.nil_append] at h1
              rw [← h1, bits_length, ← hL] at h2
              have := List.length_pos_iff.2 hte
              unfold stLen at h2
              omega
          | cons t ts =>
              refine hno t (hp.2.2.1 t (by simp)) ?_
              rw [hL, hp.1, List.flatMap_cons, List.append_assoc]
              exact List.prefix_append _ _
    · rw [if_neg h0]
      have hL0 : L = 0 := by omega
      subst hL0
      left
      refine ⟨[], [], ⟨by simp, by simp, by simp, ?_⟩, by simp⟩
      intro t ht h
      exact huffCode_ne_nil ht (List.prefix_nil.1 h)

theorem decode_spec (enc : Bytes) :
    (∃ syms rest, HuffParse (bytesBits enc) syms rest ∧ decode enc = .ok (syms.map u8)) ∨
    ((¬ ∃ syms rest, HuffParse (bytesBits enc) syms rest) ∧
      decode enc = .throw .invalidArgument) := by
  have := decodeLoop_spec (8 * enc.length) (enc.length * 8) 0 enc 0 0 [] (by simp [stLen])
    (by omega) (by simp) (by omega)
  rw [bytesBits_eq]
  simpa [stVal, decode] using this

theorem decode_eq_ok {enc out : Bytes} : decode enc = .ok out ↔
    ∃ syms rest, HuffParse (bytesBits enc) syms rest ∧ out = syms.map u8 := by
  rcases decode_spec enc with ⟨syms, rest, h1, h2⟩ | ⟨h1, h2⟩
  · constructor
    · intro h
      rw [h2] at h
      exact ⟨syms, rest, h1, (Res.ok.inj h).symm⟩
    · rintro ⟨syms', rest', h3, rfl⟩
      rw [h2, (h1.unique h3).1]
  · constructor
    · intro h; rw [h2] at h; cases h
    · rintro ⟨syms, rest, h3, -⟩
      exact (h1 ⟨syms, rest, h3⟩).elim

/-- No code is a prefix of fewer than eight 1 bits. -/
theorem ones_no_code {p s : Nat} (hp : p < 8) (hs : s < 257) :
    ¬ huffCode s <+: List.replicate p true := by
  intro h
  have h2 : huffCode s <+: huffCode eos := by
    refine h.trans ?_
    rw [huffCode_eq huffTable_eos, bits_ones]
    exact ⟨List.replicate (30 - p) true, by
      rw [List.replicate_append_replicate]; congr 1; omega⟩
  have := huffCode_prefix_free hs (by decide) h2 (List.prefix_refl _)
  subst this
  have hl := h.length_le
  rw [huffCode_eq huffTable_eos, bits_length, List.length_replicate] at hl
  omega

theorem all_true_eq {pad : List Bool} (h : ∀ b ∈ pad, b = true) :
    pad = List.replicate pad.length true :=
  List.eq_replicate_iff.2 ⟨rfl, h⟩

theorem flatMap_huff (s : Bytes) :
    (s.map UInt8.toNat).flatMap huffCode = s.flatMap fun b => huffCode b.toNat := by
  rw [List.flatMap_map]

theorem HuffDecodes.parse {enc s : Bytes} (h : HuffDecodes enc s) :
    ∃ rest, HuffParse (bytesBits enc) (s.map UInt8.toNat) rest := by
  obtain ⟨pad, h1, h2, h3⟩ := h
  refine ⟨pad, ?_, h2, ?_, ?_⟩
  · rw [flatMap_huff]; exact h1
  · intro t ht
    obtain ⟨b, -, rfl⟩ := List.mem_map.1 ht
    have := b.toNat_lt
    omega
  · intro t ht
    rw [all_true_eq h3]
    exact ones_no_code h2 ht

theorem map_u8_toNat (s : Bytes) : (s.map UInt8.toNat).map u8 = s := by
  rw [List.map_map]
  conv_rhs => rw [← List.map_id s]
  apply List.map_congr_left
  intro b _
  simp

/-- Agreement with RFC 7541 5.2 whenever it assigns a meaning. -/
theorem decode_of_rfc {enc s : Bytes} (h : HuffDecodes enc s) : decode enc = .ok s := by
  obtain ⟨rest, hp⟩ := HuffDecodes.parse h
  exact decode_eq_ok.2 ⟨_, rest, hp, (map_u8_toNat s).symm⟩

theorem encode_rfc (s : Bytes) : ∃ enc, encode s = .ok enc ∧ HuffDecodes enc s := by
  obtain ⟨out, p, h1, h2, h3⟩ := encode_spec s
  refine ⟨out, h1, List.replicate p true, h3, by simpa using h2, ?_⟩
  intro b hb
  exact List.eq_of_mem_replicate hb

end Mh2c
