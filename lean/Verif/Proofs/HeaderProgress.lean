/-
Helper lemmas: progress and termination of header decoding.
-/
import Verif.Proofs.HeaderBlock

namespace Mh2c

open Rfc

theorem bind_ne_diverge {α β : Type} {x : Res α} {f : α → Res β} (hx : x ≠ .diverge)
    (hf : ∀ a, x = .ok a → f a ≠ .diverge) : (x >>= f) ≠ .diverge := by
  cases x with
  | ok a => exact hf a rfl
  | throw e => simp
  | ub k => simp
  | diverge => exact absurd rfl hx

theorem decodeIntegerValue_ne_diverge (n : Nat) (v : Bytes) :
    decodeIntegerValue n v ≠ .diverge := by
  rcases decodeIntegerValue_ok_or_ub n v with ⟨x, h⟩ | ⟨k, h⟩ <;> rw [h] <;> simp

theorem decodeIntWithLength_ne_diverge (n : Nat) (v : Bytes) :
    decodeIntWithLength n v ≠ .diverge := by
  unfold decodeIntWithLength
  exact bind_ne_diverge (decodeIntegerValue_ne_diverge n v) (fun a _ => by simp)

theorem decodeIntWithLength_bounds {n : Nat} (hn : n ≤ 8) {v : Bytes} {x len : Nat}
    (h : decodeIntWithLength n v = .ok (x, len)) : 1 ≤ len ∧ len ≤ v.length := by
  unfold decodeIntWithLength at h
  obtain ⟨y, h1, h2⟩ := Res.bind_eq_ok.1 h
  injection h2 with h2
  injection h2 with h3 h4
  subst h3 h4
  obtain ⟨rest, g1, -, -⟩ := (decodeIntegerValue_spec n hn v y).1 h1
  have hb := intDecode_bounds g1
  have hl := intDecode_length g1
  refine ⟨List.length_pos_iff.2 (encodeIntegerValue_ne_nil n y), ?_⟩
  obtain ⟨b, bs, e1, -, e3⟩ := encodeIntegerValue_cons n y hn
  rw [e1, List.length_cons, e3]
  rcases hb with ⟨h1, h2⟩ | ⟨h1, h2, h3⟩
  · rw [if_pos h1]; simp; omega
  · rw [if_neg (by omega)]
    have := (encodeIntTail_length (y - (2 ^ n - 1)) (v.length - rest.length - 1) (by omega)).2 h3
    omega

theorem decode_ne_diverge (v : Bytes) : Huffman.decode v ≠ .diverge := by
  rcases decode_spec v with ⟨syms, rest, -, h⟩ | ⟨-, h⟩ <;> rw [h] <;> simp

theorem copyRange_ne_diverge (v : Bytes) (i n : Nat) : copyRange v i n ≠ .diverge := by
  unfold copyRange; split <;> simp

theorem addressRange_ne_diverge [Platform] (v : Bytes) (i n : Nat) :
    addressRange v i n ≠ .diverge := by
  unfold addressRange
  split
  · split <;> simp
  · simp

theorem eraseFirst_ne_diverge (n : Nat) (v : Bytes) : eraseFirst n v ≠ .diverge := by
  unfold eraseFirst; split <;> simp

theorem eraseFirst_ok {n : Nat} {v w : Bytes} (h : eraseFirst n v = .ok w) :
    n ≤ v.length ∧ w = v.drop n := by
  unfold eraseFirst at h
  split at h
  · exact ⟨by assumption, (Res.ok.inj h).symm⟩
  · cases h

theorem front_ne_diverge (v : Bytes) : front v ≠ .diverge := by cases v <;> simp [front]

theorem decodeHeaderString_ne_diverge [Platform] (v : Bytes) :
    decodeHeaderString v ≠ .diverge := by
  unfold decodeHeaderString
  refine bind_ne_diverge (decodeIntWithLength_ne_diverge 7 v) ?_
  rintro ⟨length, intLength⟩ _
  refine bind_ne_diverge (front_ne_diverge v) (fun first _ => ?_)
  simp only
  split
  · refine bind_ne_diverge (copyRange_ne_diverge _ _ _) (fun d _ => ?_)
    refine bind_ne_diverge (decode_ne_diverge d) (fun d' _ => ?_)
    exact bind_ne_diverge (addressRange_ne_diverge _ _ _) (fun _ _ => by simp)
  · exact bind_ne_diverge (addressRange_ne_diverge _ _ _) (fun _ _ => by simp)

theorem decodeHeaderString_bounds [Platform] {v s : Bytes} {len : Nat}
    (h : decodeHeaderString v = .ok (s, len)) : 1 ≤ len := by
  unfold decodeHeaderString at h
  obtain ⟨⟨length, intLength⟩, h1, h2⟩ := Res.bind_eq_ok.1 h
  have hb := decodeIntWithLength_bounds (by omega) h1
  obtain ⟨first, -, h3⟩ := Res.bind_eq_ok.1 h2
  simp only at h3
  split at h3
  · obtain ⟨d, -, h4⟩ := Res.bind_eq_ok.1 h3
    obtain ⟨d', -, h5⟩ := Res.bind_eq_ok.1 h4
    obtain ⟨str, -, h6⟩ := Res.bind_eq_ok.1 h5
    injection h6 with h6
    injection h6 with _ h7
    omega
  · obtain ⟨str, -, h6⟩ := Res.bind_eq_ok.1 h3
    injection h6 with h6
    injection h6 with _ h7
    omega

theorem decodeLiteral_ne_diverge [Platform] (v : Bytes) (p : HeaderPrefix) (ih : Header) (n : Nat) :
    decodeLiteral v p ih n ≠ .diverge := by
  unfold decodeLiteral
  refine bind_ne_diverge (eraseFirst_ne_diverge _ _) (fun d _ => ?_)
  split
  · refine bind_ne_diverge (decodeHeaderString_ne_diverge _) ?_
    rintro ⟨name, nl⟩ _
    refine bind_ne_diverge (eraseFirst_ne_diverge _ _) (fun d' _ => ?_)
    refine bind_ne_diverge (decodeHeaderString_ne_diverge _) ?_
    rintro ⟨value, vl⟩ _
    exact bind_ne_diverge (eraseFirst_ne_diverge _ _) (fun _ _ => by simp)
  · refine bind_ne_diverge (decodeHeaderString_ne_diverge _) ?_
    rintro ⟨value, vl⟩ _
    exact bind_ne_diverge (eraseFirst_ne_diverge _ _) (fun _ _ => by simp)

theorem decodeLiteral_bounds [Platform] {v : Bytes} {p : HeaderPrefix} {ih : Header} {n len : Nat}
    {e : HeaderEntry} (h : decodeLiteral v p ih n = .ok (e, len)) : n ≤ len ∧ len ≤ v.length := by
  unfold decodeLiteral at h
  obtain ⟨d, h1, h2⟩ := Res.bind_eq_ok.1 h
  obtain ⟨a1, rfl⟩ := eraseFirst_ok h1
  split at h2
  · obtain ⟨⟨name, nl⟩, -, h3⟩ := Res.bind_eq_ok.1 h2
    obtain ⟨d', h4, h5⟩ := Res.bind_eq_ok.1 h3
    obtain ⟨a2, rfl⟩ := eraseFirst_ok h4
    obtain ⟨⟨value, vl⟩, -, h6⟩ := Res.bind_eq_ok.1 h5
    obtain ⟨d'', h7, h8⟩ := Res.bind_eq_ok.1 h6
    obtain ⟨a3, -⟩ := eraseFirst_ok h7
    injection h8 with h8
    injection h8 with _ h9
    simp only [List.length_drop] at a2 a3
    omega
  · obtain ⟨⟨value, vl⟩, -, h6⟩ := Res.bind_eq_ok.1 h2
    obtain ⟨d'', h7, h8⟩ := Res.bind_eq_ok.1 h6
    obtain ⟨a3, -⟩ := eraseFirst_ok h7
    injection h8 with h8
    injection h8 with _ h9
    simp only [List.length_drop] at a3
    omega

theorem decodeIndex_eq {p : HeaderPrefix} (hp : p ≠ .sizeUpdate) (v : Bytes) :
    decodeIndex v p = decodeIntWithLength (nbits p) v := by
  cases p <;> first | rfl | exact absurd rfl hp

theorem makeIndexedHeader_ne_diverge (i : Nat) (table : DynamicTable) :
    makeIndexedHeader i table ≠ .diverge := by
  unfold makeIndexedHeader DynamicTable.atPos staticTableAt
  split
  · split <;> simp
  · split <;> simp

theorem decodeHeader_ne_diverge [Platform] (v : Bytes) (table : DynamicTable) :
    decodeHeader v table ≠ .diverge := by
  unfold decodeHeader
  refine bind_ne_diverge (front_ne_diverge v) (fun first _ => ?_)
  rw [checkPrefix_eq, Res.ok_bind]
  by_cases hp : prefixClass first.toNat = .sizeUpdate
  · rw [if_pos hp]
    exact bind_ne_diverge (decodeIntWithLength_ne_diverge 5 v) (fun _ _ => by simp)
  · rw [if_neg hp]
    refine bind_ne_diverge ?_ ?_
    · rw [decodeIndex_eq hp]; exact decodeIntWithLength_ne_diverge _ _
    · rintro ⟨index, il⟩ _
      simp only
      have key : ∀ ih : Header, (if prefixClass first.toNat = .indexed then
          pure (HeaderEntry.ofHeader (prefixClass first.toNat) ih, il)
          else decodeLiteral v (prefixClass first.toNat) ih il) ≠ Res.diverge := by
        intro ih
        split
        · simp
        · exact decodeLiteral_ne_diverge _ _ _ _
      split
      · exact bind_ne_diverge (makeIndexedHeader_ne_diverge _ _) (fun ih _ => key ih)
      · exact key _

theorem decodeHeader_bounds [Platform] {v : Bytes} {table : DynamicTable} {e : HeaderEntry} {n : Nat}
    (h : decodeHeader v table = .ok (e, n)) : 1 ≤ n ∧ n ≤ v.length := by
  unfold decodeHeader at h
  obtain ⟨first, -, h⟩ := Res.bind_eq_ok.1 h
  rw [checkPrefix_eq, Res.ok_bind] at h
  by_cases hp : prefixClass first.toNat = .sizeUpdate
  · rw [if_pos hp] at h
    obtain ⟨⟨ms, len⟩, h1, h2⟩ := Res.bind_eq_ok.1 h
    have := decodeIntWithLength_bounds (by omega) h1
    injection h2 with h2
    injection h2 with _ h3
    omega
  · rw [if_neg hp] at h
    obtain ⟨⟨index, il⟩, h1, h2⟩ := Res.bind_eq_ok.1 h
    rw [decodeIndex_eq hp] at h1
    have hb := decodeIntWithLength_bounds (nbits_le _) h1
    simp only at h2
    have key : ∀ ih : Header, (if prefixClass first.toNat = .indexed then
        pure (HeaderEntry.ofHeader (prefixClass first.toNat) ih, il)
        else decodeLiteral v (prefixClass first.toNat) ih il) = Res.ok (e, n) →
        1 ≤ n ∧ n ≤ v.length := by
      intro ih hk
      split at hk
      · injection hk with hk
        injection hk with _ h3
        omega
      · have := decodeLiteral_bounds hk
        omega
    split at h2
    · obtain ⟨ih, -, h3⟩ := Res.bind_eq_ok.1 h2
      exact key ih h3
    · exact key _ h2

theorem decodeHeaderBlock_ne_diverge [Platform] (data : Bytes) (table : DynamicTable) :
    decodeHeaderBlock data table ≠ .diverge := by
  induction hn : data.length using Nat.strong_induction_on generalizing data with
  | _ k ih =>
    rw [decodeHeaderBlock]
    split
    · cases h : decodeHeader data table with
      | throw e => simp
      | ub k => simp
      | diverge => exact absurd h (decodeHeader_ne_diverge _ _)
      | ok p =>
          obtain ⟨e, n⟩ := p
          have hb := decodeHeader_bounds h
          simp only
          rw [if_neg (by omega), if_pos (by omega)]
          refine bind_ne_diverge (ih (data.drop n).length (by simp; omega) _ rfl) (fun _ _ => by simp)
    · simp

/-- One step of the loop. -/
theorem decodeHeaderBlock_eq [Platform] {data : Bytes} (hd : data ≠ []) (table : DynamicTable) :
    decodeHeaderBlock data table = (do
      let (e, n) ← decodeHeader data table
      let es ← decodeHeaderBlock (data.drop n) table
      return e :: es) := by
  conv_lhs => rw [decodeHeaderBlock]
  rw [if_pos (List.length_pos_iff.2 hd)]
  cases h : decodeHeader data table with
  | throw e => rfl
  | ub k => rfl
  | diverge => rfl
  | ok p =>
      obtain ⟨e, n⟩ := p
      have hb := decodeHeader_bounds h
      simp only
      rw [if_neg (by omega), if_pos (by omega)]
      rfl

end Mh2c
