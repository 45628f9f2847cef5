/-
How much a header block can expand.
-/
import Verif.Proofs.Received
import Verif.Spec.ServerStream

namespace Mh2c

open Rfc

theorem syms_length5 {l rest : List Bool} {syms : List Nat} (h : HuffParse l syms rest) :
    5 * syms.length ≤ l.length := by
  obtain ⟨rfl, -, h3, -⟩ := h
  rw [List.length_append]
  have : 5 * syms.length ≤ (syms.flatMap huffCode).length := by
    clear * - h3
    induction syms with
    | nil => simp
    | cons s ss ih =>
        have hs : s < 257 := h3 s (by simp)
        have hpos : 5 ≤ (huffCode s).length := by
          have hall : (List.range 257).all (fun s => decide (5 ≤ (huffCode s).length)) = true := by
            decide +kernel
          exact of_decide_eq_true (List.all_eq_true.1 hall s (List.mem_range.2 hs))
        have := ih (fun t ht => h3 t (by simp [ht]))
        simp only [List.flatMap_cons, List.length_append, List.length_cons]
        omega
  omega

theorem decode_length5 {v out : Bytes} (h : Huffman.decode v = .ok out) :
    5 * out.length ≤ 8 * v.length := by
  obtain ⟨syms, rest, h1, rfl⟩ := decode_eq_ok.1 h
  rw [List.length_map, ← bytesBits_length]
  exact syms_length5 h1

theorem addressRange_le [Platform] {v w : Bytes} {i n : Nat} (h : addressRange v i n = .ok w) :
    w.length ≤ n := by
  unfold addressRange at h
  split at h
  · split at h
    · cases h
    · obtain rfl := Res.ok.inj h
      simp only [List.length_take]; omega
  · cases h

theorem copyRange_le {v w : Bytes} {i n : Nat} (h : copyRange v i n = .ok w) : w.length ≤ n := by
  unfold copyRange at h
  split at h
  · obtain rfl := Res.ok.inj h
    simp only [List.length_take]; omega
  · cases h

theorem decodeHeaderString_le [Platform] {v s : Bytes} {len : Nat}
    (h : decodeHeaderString v = .ok (s, len)) : 5 * s.length ≤ 8 * len := by
  unfold decodeHeaderString at h
  obtain ⟨⟨length, intLength⟩, h1, h2⟩ := Res.bind_eq_ok.1 h
  obtain ⟨first, -, h3⟩ := Res.bind_eq_ok.1 h2
  simp only at h3
  split at h3
  · obtain ⟨d, a1, h4⟩ := Res.bind_eq_ok.1 h3
    obtain ⟨d', a2, h5⟩ := Res.bind_eq_ok.1 h4
    obtain ⟨str, a3, h6⟩ := Res.bind_eq_ok.1 h5
    injection h6 with h6
    injection h6 with h7 h8
    subst h7
    have := copyRange_le a1
    have := decode_length5 a2
    have := addressRange_le a3
    omega
  · obtain ⟨str, a3, h6⟩ := Res.bind_eq_ok.1 h3
    injection h6 with h6
    injection h6 with h7 h8
    subst h7
    have := addressRange_le a3
    omega

theorem static_short60 {i : Nat} {h : Header} (hs : staticTableEntries.lookup i = some h) :
    entrySize h ≤ 60 := by
  have hall : staticTableEntries.all (fun e => decide (entrySize e.2 ≤ 60)) = true := by
    decide +kernel
  exact of_decide_eq_true (List.all_eq_true.1 hall _ (lookup_mem hs))

theorem makeIndexedHeader_le {i : Nat} {table : DynamicTable} {h : Header}
    (hi : makeIndexedHeader i table = .ok h) :
    entrySize h ≤ max (tableSize table.entries) 60 := by
  unfold makeIndexedHeader at hi
  split at hi
  · unfold DynamicTable.atPos at hi
    split at hi
    · rename_i h' he
      obtain rfl := Res.ok.inj hi
      have := entry_le_tableSize (List.mem_of_getElem? he)
      unfold entrySize; omega
    · cases hi
  · unfold staticTableAt at hi
    split at hi
    · rename_i h' he
      obtain rfl := Res.ok.inj hi
      have := static_short60 he
      omega
    · cases hi

theorem decodeLiteral_le [Platform] {v : Bytes} {p : HeaderPrefix} {ih : Header} {n len m : Nat}
    {e : HeaderEntry} (hm : ih.1.length + 32 ≤ m) (h : decodeLiteral v p ih n = .ok (e, len)) :
    ∃ x, e = ⟨p, .header x⟩ ∧ 5 * entrySize x ≤ 5 * m + 8 * len := by
  unfold decodeLiteral at h
  obtain ⟨d, h1, h2⟩ := Res.bind_eq_ok.1 h
  split at h2
  · rename_i h0
    obtain ⟨⟨name, nl⟩, b1, h3⟩ := Res.bind_eq_ok.1 h2
    obtain ⟨d', h4, h5⟩ := Res.bind_eq_ok.1 h3
    obtain ⟨⟨value, vl⟩, b2, h6⟩ := Res.bind_eq_ok.1 h5
    obtain ⟨d'', h7, h8⟩ := Res.bind_eq_ok.1 h6
    injection h8 with h8
    injection h8 with h8 h9
    have l1 := decodeHeaderString_le b1
    have l2 := decodeHeaderString_le b2
    exact ⟨(name, value), h8.symm, by
      show 5 * (name.length + value.length + 32) ≤ _; omega⟩
  · obtain ⟨⟨value, vl⟩, b1, h6⟩ := Res.bind_eq_ok.1 h2
    obtain ⟨d'', h7, h8⟩ := Res.bind_eq_ok.1 h6
    injection h8 with h8
    injection h8 with h8 h9
    have l1 := decodeHeaderString_le b1
    exact ⟨(ih.1, value), h8.symm, by
      show 5 * (ih.1.length + value.length + 32) ≤ _; omega⟩

theorem decodeHeader_le [Platform] {v : Bytes} {table : DynamicTable} {e : HeaderEntry} {n : Nat}
    (h : decodeHeader v table = .ok (e, n)) :
    ∀ x, e.entry = .header x →
      5 * entrySize x ≤ 5 * max (tableSize table.entries) 60 + 8 * n := by
  unfold decodeHeader at h
  obtain ⟨first, -, h⟩ := Res.bind_eq_ok.1 h
  rw [checkPrefix_eq, Res.ok_bind] at h
  by_cases hp : prefixClass first.toNat = .sizeUpdate
  · rw [if_pos hp] at h
    obtain ⟨⟨ms, len⟩, h1, h2⟩ := Res.bind_eq_ok.1 h
    injection h2 with h2
    injection h2 with h2 _
    subst h2
    intro x hx; cases hx
  · rw [if_neg hp] at h
    obtain ⟨⟨index, il⟩, h1, h2⟩ := Res.bind_eq_ok.1 h
    simp only at h2
    have key : ∀ ih : Header, entrySize ih ≤ max (tableSize table.entries) 60 →
        (if prefixClass first.toNat = .indexed then
        pure (HeaderEntry.ofHeader (prefixClass first.toNat) ih, il)
        else decodeLiteral v (prefixClass first.toNat) ih il) = Res.ok (e, n) →
        ∀ x, e.entry = .header x →
          5 * entrySize x ≤ 5 * max (tableSize table.entries) 60 + 8 * n := by
      intro ih hl hk
      split at hk
      · injection hk with hk
        injection hk with h3 _
        subst h3
        intro x hx
        injection hx with hx
        subst hx
        omega
      · obtain ⟨x, rfl, hx⟩ := decodeLiteral_le (m := max (tableSize table.entries) 60)
          (by unfold entrySize at hl; omega) hk
        intro y hy
        injection hy with hy
        subst hy
        exact hx
    split at h2
    · obtain ⟨ih, hi, h3⟩ := Res.bind_eq_ok.1 h2
      exact key ih (makeIndexedHeader_le hi) h3
    · exact key ([], []) (by show 32 ≤ _; omega) h2

theorem decodeHeaderBlock_le [Platform] {v : Bytes} {table : DynamicTable} {es : HeaderBlock}
    (h : decodeHeaderBlock v table = .ok es) :
    es.length ≤ v.length ∧
      5 * tableSize (headersOf es) ≤ v.length * (5 * max (tableSize table.entries) 60 + 8) := by
  induction hn : v.length using Nat.strong_induction_on generalizing v es with
  | _ k ih =>
    by_cases hv : v = []
    · subst hv
      rw [decodeHeaderBlock_nil] at h
      obtain rfl := Res.ok.inj h
      exact ⟨by simp, by simp [headersOf, tableSize]⟩
    · rw [decodeHeaderBlock_eq hv] at h
      obtain ⟨⟨e, n⟩, h1, h2⟩ := Res.bind_eq_ok.1 h
      obtain ⟨es', h3, h4⟩ := Res.bind_eq_ok.1 h2
      obtain rfl := Res.ok.inj h4
      have hb := decodeHeader_bounds h1
      obtain ⟨i1, i2⟩ := @ih (v.drop n).length (by simp; omega) (v.drop n) es' h3 rfl
      rw [List.length_drop] at i1 i2
      have hle := decodeHeader_le h1
      generalize hM : max (tableSize table.entries) 60 = M at *
      refine ⟨by simp only [List.length_cons]; omega, ?_⟩
      have hsum : 5 * tableSize (headersOf (e :: es')) ≤
          (5 * M + 8 * n) + 5 * tableSize (headersOf es') := by
        obtain ⟨p, _ | _⟩ := e
        · rename_i x
          have := hle x rfl
          have hc : tableSize (headersOf (⟨p, .header x⟩ :: es')) =
              entrySize x + tableSize (headersOf es') := by
            simp [headersOf, tableSize]
          rw [hc]; omega
        · rename_i ms
          have hc : tableSize (headersOf (⟨p, .maxSize ms⟩ :: es')) = tableSize (headersOf es') := by
            simp [headersOf]
          rw [hc]; omega
      have hk : k = n + (k - n) := by omega
      rw [hk, Nat.add_mul]
      rw [hn] at i2
      have : 5 * M + 8 * n ≤ n * (5 * M + 8) := by
        rw [Nat.mul_add, Nat.mul_comm n 8]
        have : 5 * M ≤ n * (5 * M) := Nat.le_mul_of_pos_left _ hb.1
        omega
      omega

end Mh2c
