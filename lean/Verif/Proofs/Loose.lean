/-
Lemmas for C121: the decoder accepts exactly the language of `Spec/Loose.lean`.
-/
import Verif.Proofs.Causes
import Verif.Props.IntRep
import Verif.Props.Tables
import Verif.Props.Huffman
import Verif.Spec.Kept
import Verif.Spec.Loose

namespace Mh2c

open Rfc

theorem shortest_iff {n : Nat} (h1 : 1 ≤ n) (h8 : n ≤ 8) (v k : Nat) :
    ShortestInt n v k ↔ k = (encodeIntegerValue n v).length := by
  obtain ⟨-, h2, h3⟩ := C08_minimal_rfc_form n v h1 h8
  constructor
  · rintro ⟨⟨bs, g1, g2⟩, g3⟩
    have := h3 bs g1
    have := g3 _ h2
    omega
  · rintro rfl
    exact ⟨⟨_, h2, rfl⟩, h3⟩

/-- The integer reader: value and number of octets. -/
theorem int_ok {n : Nat} (h1 : 1 ≤ n) (h8 : n ≤ 8) (bs : Bytes) (v k : Nat) :
    decodeIntWithLength n bs = .ok (v, k) ↔ k ≤ bs.length ∧ LooseInt n bs v (bs.drop k) := by
  have hv := (C09_value_exact n h1 h8 bs).1 v
  constructor
  · intro h
    have hb := decodeIntWithLength_bounds h8 h
    unfold decodeIntWithLength at h
    obtain ⟨y, g1, g2⟩ := Res.bind_eq_ok.1 h
    injection g2 with g2
    injection g2 with g3 g4
    subst g3
    obtain ⟨r, k1, k2, k3⟩ := hv.1 g1
    exact ⟨hb.2, r, k, k1, k2, k3, (shortest_iff h1 h8 _ _).2 g4.symm, rfl⟩
  · rintro ⟨hk, r, k', k1, k2, k3, k4, k5⟩
    have g1 := hv.2 ⟨r, k1, k2, k3⟩
    have e := (shortest_iff h1 h8 _ _).1 k4
    have hu := encode_length_le_used h8 k1
    have hl := (intDecode_length k1)
    have hk' : k' ≤ bs.length := by omega
    have : k = k' := by
      have := congrArg List.length k5
      rw [List.length_drop, List.length_drop] at this
      omega
    subst this
    unfold decodeIntWithLength
    rw [g1, Res.ok_bind, e]; rfl

theorem LooseInt.drop {n : Nat} (h1 : 1 ≤ n) (h8 : n ≤ 8) {bs : Bytes} {v : Nat} {rest : Bytes}
    (h : LooseInt n bs v rest) :
    ∃ k, 1 ≤ k ∧ k ≤ bs.length ∧ rest = bs.drop k ∧ decodeIntWithLength n bs = .ok (v, k) := by
  obtain ⟨r, k, k1, k2, k3, k4, k5⟩ := h
  have e := (shortest_iff h1 h8 _ _).1 k4
  have hu := encode_length_le_used h8 k1
  have hd : decodeIntWithLength n bs = .ok (v, k) :=
    (int_ok h1 h8 bs v k).2 ⟨by omega, r, k, k1, k2, k3, k4, rfl⟩
  have := decodeIntWithLength_bounds h8 hd
  exact ⟨k, this.1, this.2, k5, hd⟩

theorem huffman_ok (data s : Bytes) : Huffman.decode data = .ok s ↔ LooseHuffman data s :=
  C13_acceptance data s

theorem highBit (b : UInt8) : highBits 8 1 b.toNat ≠ 0 ↔ 128 ≤ b.toNat :=
  of_decide_eq_true <| u8_all (p := fun b => highBits 8 1 b.toNat ≠ 0 ↔ 128 ≤ b.toNat)
    (by decide +kernel) b

theorem drop_split {v : Bytes} {i n : Nat} (h : i + n ≤ v.length) :
    ((v.drop i).take n).length = n ∧ (v.drop i).take n ++ v.drop (i + n) = v.drop i := by
  constructor
  · rw [List.length_take, List.length_drop]; omega
  · rw [← List.drop_drop, List.take_append_drop]

/-- What is known once length and first octet are read. -/
theorem string_eq [P : Platform] {b : UInt8} {tail : Bytes} {len k : Nat}
    (h : decodeIntWithLength 7 (b :: tail) = .ok (len, k)) :
    decodeHeaderString (b :: tail) =
      (if 128 ≤ b.toNat then do
        let data ← copyRange (b :: tail) k len
        let decoded ← Huffman.decode data
        let str ← addressRange decoded 0 decoded.length
        return (str, k + len)
      else do
        let str ← addressRange (b :: tail) k len
        return (str, k + len)) := by
  unfold decodeHeaderString
  simp only [h, Res.ok_bind, front]
  by_cases hb : 128 ≤ b.toNat
  · rw [if_pos hb, if_pos ((highBit b).2 hb)]
  · rw [if_neg hb, if_neg (fun hh => hb ((highBit b).1 hh))]

/-- The string reader. -/
theorem string_ok [P : Platform] (v s : Bytes) (k : Nat) :
    decodeHeaderString v = .ok (s, k) ↔ k ≤ v.length ∧ LooseString v s (v.drop k) := by
  constructor
  · intro h
    cases v with
    | nil =>
        exfalso
        unfold decodeHeaderString at h
        obtain ⟨⟨len, i⟩, g1, -⟩ := Res.bind_eq_ok.1 h
        have := decodeIntWithLength_bounds (by omega) g1
        simp at this; omega
    | cons b tail =>
        obtain ⟨⟨len, i⟩, g1, -⟩ := Res.bind_eq_ok.1 (show _ = _ from by
          rw [decodeHeaderString] at h; exact h)
        have hint := ((int_ok (by omega) (by omega) _ _ _).1 g1)
        rw [string_eq g1] at h
        split at h
        · rename_i hb
          obtain ⟨data, a1, h⟩ := Res.bind_eq_ok.1 h
          obtain ⟨dec, a2, h⟩ := Res.bind_eq_ok.1 h
          obtain ⟨str, a3, h⟩ := Res.bind_eq_ok.1 h
          injection h with h
          injection h with h4 h5
          subst h4 h5
          unfold copyRange at a1
          split at a1
          swap
          · cases a1
          rename_i hle
          obtain rfl := (Res.ok.inj a1).symm
          obtain ⟨d1, d2⟩ := drop_split hle
          unfold addressRange at a3
          rw [if_pos (by omega)] at a3
          split at a3
          · cases a3
          rename_i hs
          obtain rfl := (Res.ok.inj a3).symm
          refine ⟨hle, b, tail, ((b :: tail).drop i).take len, rfl, ?_, Or.inr ⟨hb, ?_, ?_⟩⟩
          · rw [d1, d2]; exact hint.2
          · rw [List.drop_zero, List.take_length]; exact (huffman_ok _ _).1 a2
          · intro hP h0
            rw [List.drop_zero, List.take_length] at h0
            exact hs ⟨by rw [h0]; rfl, hP⟩
        · rename_i hb
          obtain ⟨str, a3, h⟩ := Res.bind_eq_ok.1 h
          injection h with h
          injection h with h4 h5
          subst h4 h5
          unfold addressRange at a3
          split at a3
          swap
          · cases a3
          rename_i hle
          split at a3
          · cases a3
          rename_i hs
          obtain rfl := (Res.ok.inj a3).symm
          obtain ⟨d1, d2⟩ := drop_split hle
          refine ⟨hle, b, tail, ((b :: tail).drop i).take len, rfl, ?_, Or.inl ⟨by omega, rfl, ?_⟩⟩
          · rw [d1, d2]; exact hint.2
          · intro hP h0
            rw [d2] at h0
            have := congrArg List.length h0
            rw [List.length_drop] at this
            simp only [List.length_nil] at this
            exact hs ⟨by omega, hP⟩
  · rintro ⟨hk, b, tail, data, rfl, hi, hc⟩
    obtain ⟨i, i1, i2, i3, i4⟩ := hi.drop (by omega) (by omega)
    have hl := congrArg List.length i3
    rw [List.length_append, List.length_drop, List.length_drop] at hl
    have hke : k = i + data.length := by omega
    subst hke
    have hle : i + data.length ≤ (b :: tail).length := hk
    have hd : ((b :: tail).drop i).take data.length = data := by
      rw [← i3, List.take_left']; rfl
    rw [string_eq i4]
    rcases hc with ⟨hb, rfl, hs⟩ | ⟨hb, hh, hs⟩
    · rw [if_neg (by omega)]
      unfold addressRange
      rw [if_pos hle, if_neg ?_, hd]
      · rfl
      · rintro ⟨h1, h2⟩
        apply hs h2
        rw [i3, h1, List.drop_length]
    · rw [if_pos hb]
      unfold copyRange addressRange
      rw [if_pos hle, hd, Res.ok_bind, (huffman_ok _ _).2 hh, Res.ok_bind, if_pos (by omega),
        if_neg ?_, List.drop_zero, List.take_length]
      · rfl
      · rintro ⟨h1, h2⟩
        exact hs h2 (List.length_eq_zero_iff.1 h1.symm)

theorem LooseString.drop [P : Platform] {v s rest : Bytes} (h : LooseString v s rest) :
    ∃ k, 1 ≤ k ∧ k ≤ v.length ∧ rest = v.drop k ∧ decodeHeaderString v = .ok (s, k) := by
  obtain ⟨b, tail, data, rfl, hi, hc⟩ := h
  obtain ⟨i, i1, i2, i3, -⟩ := hi.drop (by omega) (by omega)
  have hl := congrArg List.length i3
  rw [List.length_append, List.length_drop] at hl
  have hr : rest = (b :: tail).drop (i + data.length) := by
    rw [← List.drop_drop, ← i3, List.drop_left']; rfl
  refine ⟨i + data.length, by omega, by omega, hr, ?_⟩
  rw [string_ok]
  exact ⟨by omega, b, tail, data, rfl, by rw [← hr]; exact hi, by rw [← hr]; exact hc⟩

theorem string_throw [P : Platform] (v : Bytes) (e : Exc) :
    decodeHeaderString v = .throw e ↔ e = .invalidArgument ∧ BadString v := by
  constructor
  · intro h
    refine ⟨(decodeHeaderString_throw h).1, ?_⟩
    cases v with
    | nil =>
        exfalso
        unfold decodeHeaderString at h
        rcases bind_eq_throw h with h1 | ⟨⟨len, i⟩, g1, -⟩
        · exact decodeIntWithLength_ne_throw _ _ _ h1
        · have := decodeIntWithLength_bounds (by omega) g1
          simp at this; omega
    | cons b tail =>
        rcases bind_eq_throw (show _ = _ from by rw [decodeHeaderString] at h; exact h) with
          h1 | ⟨⟨len, i⟩, g1, -⟩
        · exact absurd h1 (decodeIntWithLength_ne_throw _ _ _)
        have hint := ((int_ok (by omega) (by omega) _ _ _).1 g1)
        rw [string_eq g1] at h
        split at h
        · rename_i hb
          rcases bind_eq_throw h with h1 | ⟨data, a1, h⟩
          · exact absurd h1 (copyRange_ne_throw _ _ _ _)
          unfold copyRange at a1
          split at a1
          swap
          · cases a1
          rename_i hle
          obtain rfl := (Res.ok.inj a1).symm
          obtain ⟨d1, d2⟩ := drop_split hle
          refine ⟨b, tail, ((b :: tail).drop i).take len, (b :: tail).drop (i + len), rfl, ?_, hb, ?_⟩
          · rw [d1, d2]; exact hint.2
          · rintro ⟨s, hs⟩
            rw [(huffman_ok _ _).2 hs, Res.ok_bind] at h
            exact absurd h (bind_ne_throw (addressRange_ne_throw _ _ _) (fun _ _ => by simp) e)
        · exact absurd h (bind_ne_throw (addressRange_ne_throw _ _ _) (fun _ _ => by simp) e)
  · rintro ⟨rfl, b, tail, data, rest, rfl, hi, hb, hn⟩
    obtain ⟨i, i1, i2, i3, i4⟩ := hi.drop (by omega) (by omega)
    have hl := congrArg List.length i3
    rw [List.length_append, List.length_drop] at hl
    have hle : i + data.length ≤ (b :: tail).length := by omega
    have hd : ((b :: tail).drop i).take data.length = data := by
      rw [← i3, List.take_left']; rfl
    rw [string_eq i4, if_pos hb]
    unfold copyRange
    rw [if_pos hle, hd, Res.ok_bind]
    rcases C12_total_and_safe data with ⟨out, ho⟩ | ho
    · exact absurd ⟨out, (huffman_ok _ _).1 ho⟩ hn
    · rw [ho]; rfl

theorem looseField_none {entries : List Field} {i : Nat} :
    looseField entries i = none ↔ 61 + entries.length < i := by
  unfold looseField
  split
  · simp; omega
  split
  · simp; omega
  split
  · rw [List.getElem?_eq_none_iff]
    have : staticTable.length = 61 := by decide +kernel
    omega
  · rw [List.getElem?_eq_none_iff]; omega

/-- The field an index stands for. -/
theorem field_eq (i : Nat) (t : DynamicTable) :
    (if i > 0 then makeIndexedHeader i t else .ok ([], [])) =
      match looseField t.entries i with
      | some f => .ok f
      | none => .throw .outOfRange := by
  by_cases h0 : i = 0
  · subst h0; rfl
  rw [if_pos (by omega)]
  unfold looseField makeIndexedHeader
  rw [if_neg h0, staticTable_length]
  by_cases h20 : i = 20
  · subst h20
    rw [if_neg (by omega), if_pos rfl]
    have : staticTableEntries.lookup 20 = some (mistypedName, []) := by decide +kernel
    unfold staticTableAt
    rw [this]
  rw [if_neg h20]
  by_cases h61 : i ≤ 61
  · rw [if_neg (by omega), if_pos h61]
    unfold staticTableAt
    rw [staticTable_eq_rfc (by omega) h61 h20]
    rfl
  · rw [if_pos (by omega), if_neg h61]
    unfold DynamicTable.atPos
    rw [Nat.sub_sub]
    rfl

theorem eraseFirst_of_le {n : Nat} {v : Bytes} (h : n ≤ v.length) : eraseFirst n v = .ok (v.drop n) := by
  unfold eraseFirst; rw [if_pos h]

/-- The part of a literal after the index. -/
def LooseText [Platform] (named : Field) (bs : Bytes) (f : Field) (rest : Bytes) : Prop :=
  (named.1 ≠ [] ∧ f.1 = named.1 ∧ LooseString bs f.2 rest) ∨
    (named.1 = [] ∧ ∃ rest2, LooseString bs f.1 rest2 ∧ LooseString rest2 f.2 rest)

def BadText [Platform] (named : Field) (bs : Bytes) : Prop :=
  BadString bs ∨ (named.1 = [] ∧ ∃ name rest2, LooseString bs name rest2 ∧ BadString rest2)

theorem text_ok [Platform] {v : Bytes} {p : HeaderPrefix} {named : Header} {k m : Nat}
    {e : HeaderEntry} (h : decodeLiteral v p named k = .ok (e, m)) :
    m ≤ v.length ∧ ∃ f, e = .ofHeader p f ∧ LooseText named (v.drop k) f (v.drop m) := by
  unfold decodeLiteral at h
  obtain ⟨data, h1, h⟩ := Res.bind_eq_ok.1 h
  have hk : k ≤ v.length := by
    unfold eraseFirst at h1; split at h1
    · assumption
    · cases h1
  rw [eraseFirst_of_le hk] at h1
  obtain rfl := (Res.ok.inj h1).symm
  split at h
  · rename_i h0
    obtain ⟨⟨name, nl⟩, g1, h⟩ := Res.bind_eq_ok.1 h
    obtain ⟨g2, g3⟩ := (string_ok _ _ _).1 g1
    simp only [eraseFirst_of_le g2, Res.ok_bind] at h
    obtain ⟨⟨value, vl⟩, g4, h⟩ := Res.bind_eq_ok.1 h
    obtain ⟨g5, g6⟩ := (string_ok _ _ _).1 g4
    simp only [eraseFirst_of_le g5, Res.ok_bind] at h
    injection h with h
    injection h with h1 h2
    subst h1 h2
    rw [List.length_drop, List.length_drop] at g5
    rw [List.length_drop] at g2
    refine ⟨by omega, (name, value), rfl, Or.inr ⟨List.length_eq_zero_iff.1 h0, _, g3, ?_⟩⟩
    have hd : v.drop (k + nl + vl) = ((v.drop k).drop nl).drop vl := by
      rw [List.drop_drop, List.drop_drop, Nat.add_assoc]
    rw [hd]
    exact g6
  · rename_i h0
    obtain ⟨⟨value, vl⟩, g4, h⟩ := Res.bind_eq_ok.1 h
    obtain ⟨g5, g6⟩ := (string_ok _ _ _).1 g4
    simp only [eraseFirst_of_le g5, Res.ok_bind] at h
    injection h with h
    injection h with h1 h2
    subst h1 h2
    rw [List.length_drop] at g5
    refine ⟨by omega, (named.1, value), rfl, Or.inl ⟨fun hh => h0 (by rw [hh]; rfl), rfl, ?_⟩⟩
    rwa [List.drop_drop] at g6

theorem LooseText.drop [Platform] {v : Bytes} (p : HeaderPrefix) {named f : Header} {k : Nat}
    {rest : Bytes} (hk : k ≤ v.length) (h : LooseText named (v.drop k) f rest) :
    ∃ m, k ≤ m ∧ m ≤ v.length ∧ rest = v.drop m ∧
      decodeLiteral v p named k = .ok (.ofHeader p f, m) := by
  rcases h with ⟨h0, h1, h2⟩ | ⟨h0, rest2, h1, h2⟩
  · obtain ⟨m, g1, g2, g3, g4⟩ := h2.drop
    have g5 := g2
    rw [List.length_drop] at g5
    refine ⟨k + m, by omega, by omega, by rw [g3, List.drop_drop], ?_⟩
    unfold decodeLiteral
    rw [eraseFirst_of_le hk, Res.ok_bind, if_neg (fun hh => h0 (List.length_eq_zero_iff.1 hh))]
    simp only [g4, Res.ok_bind, eraseFirst_of_le g2, ← h1]
    rfl
  · obtain ⟨m1, g1, g2, rfl, g4⟩ := h1.drop
    obtain ⟨m, k1, k2, k3, k4⟩ := h2.drop
    have g5 := g2
    have k5 := k2
    rw [List.length_drop, List.length_drop] at k5
    rw [List.length_drop] at g5
    refine ⟨k + m1 + m, by omega, by omega, by rw [k3, List.drop_drop, List.drop_drop, Nat.add_assoc], ?_⟩
    unfold decodeLiteral
    rw [eraseFirst_of_le hk, Res.ok_bind, if_pos (by rw [h0]; rfl)]
    simp only [g4, Res.ok_bind, eraseFirst_of_le g2, k4, eraseFirst_of_le k2]
    rfl

theorem text_throw [Platform] {v : Bytes} (p : HeaderPrefix) {named : Header} {k : Nat}
    (hk : k ≤ v.length) (e : Exc) :
    decodeLiteral v p named k = .throw e ↔ e = .invalidArgument ∧ BadText named (v.drop k) := by
  unfold decodeLiteral
  rw [eraseFirst_of_le hk, Res.ok_bind]
  constructor
  · intro h
    split at h
    · rename_i h0
      rcases bind_eq_throw h with h1 | ⟨⟨name, nl⟩, g1, h⟩
      · obtain ⟨h2, h3⟩ := (string_throw _ _).1 h1
        exact ⟨h2, Or.inl h3⟩
      obtain ⟨g2, g3⟩ := (string_ok _ _ _).1 g1
      simp only [eraseFirst_of_le g2, Res.ok_bind] at h
      rcases bind_eq_throw h with h1 | ⟨⟨value, vl⟩, g4, h⟩
      · obtain ⟨h2, h3⟩ := (string_throw _ _).1 h1
        exact ⟨h2, Or.inr ⟨List.length_eq_zero_iff.1 h0, name, _, g3, h3⟩⟩
      obtain ⟨g5, g6⟩ := (string_ok _ _ _).1 g4
      simp only [eraseFirst_of_le g5, Res.ok_bind] at h
      cases h
    · rcases bind_eq_throw h with h1 | ⟨⟨value, vl⟩, g4, h⟩
      · obtain ⟨h2, h3⟩ := (string_throw _ _).1 h1
        exact ⟨h2, Or.inl h3⟩
      obtain ⟨g5, g6⟩ := (string_ok _ _ _).1 g4
      simp only [eraseFirst_of_le g5, Res.ok_bind] at h
      cases h
  · rintro ⟨rfl, h⟩
    rcases h with h | ⟨h0, name, rest2, h1, h2⟩
    · have := (string_throw _ _).2 ⟨rfl, h⟩
      split
      · rw [this]; rfl
      · rw [this]; rfl
    · obtain ⟨m1, g1, g2, rfl, g4⟩ := h1.drop
      rw [if_pos (by rw [h0]; rfl)]
      simp only [g4, Res.ok_bind, eraseFirst_of_le g2, (string_throw _ _).2 ⟨rfl, h2⟩]
      rfl

/-- What is done with a representation other than a size update. -/
theorem header_eq [Platform] (b : UInt8) (bs : Bytes) (t : DynamicTable)
    (hp : prefixClass b.toNat ≠ .sizeUpdate) {i k : Nat}
    (hi : decodeIntWithLength (nbits (prefixClass b.toNat)) (b :: bs) = .ok (i, k)) :
    decodeHeader (b :: bs) t =
      match looseField t.entries i with
      | none => .throw .outOfRange
      | some f => if prefixClass b.toNat = .indexed then .ok (.ofHeader .indexed f, k)
          else decodeLiteral (b :: bs) (prefixClass b.toNat) f k := by
  unfold decodeHeader
  simp only [front, Res.ok_bind, checkPrefix_eq]
  rw [if_neg hp, decodeIndex_eq hp, hi, Res.ok_bind]
  have hf := field_eq i t
  simp only
  have key : ((if i > 0 then makeIndexedHeader i t else Res.ok ([], [])) >>= fun ih =>
      if prefixClass b.toNat = .indexed then
        (return (HeaderEntry.ofHeader (prefixClass b.toNat) ih, k) : Res (HeaderEntry × Nat))
      else decodeLiteral (b :: bs) (prefixClass b.toNat) ih k) =
      match looseField t.entries i with
      | none => .throw .outOfRange
      | some f => if prefixClass b.toNat = .indexed then .ok (.ofHeader .indexed f, k)
          else decodeLiteral (b :: bs) (prefixClass b.toNat) f k := by
    rw [hf]
    cases looseField t.entries i with
    | none => rfl
    | some f =>
        simp only [Res.ok_bind]
        split
        · rename_i hh; rw [hh]; rfl
        · rfl
  rw [← key]
  split <;> rfl

theorem header_size_eq [Platform] (b : UInt8) (bs : Bytes) (t : DynamicTable)
    (hp : prefixClass b.toNat = .sizeUpdate) :
    decodeHeader (b :: bs) t =
      decodeIntWithLength 5 (b :: bs) >>= fun x => .ok (.ofSize .sizeUpdate x.1, x.2) := by
  unfold decodeHeader
  simp only [front, Res.ok_bind, checkPrefix_eq]
  rw [if_pos hp, hp]
  rfl

theorem prefixClass_cases (b : UInt8) :
    (prefixClass b.toNat = .indexed ↔ 128 ≤ b.toNat) ∧
    (prefixClass b.toNat = .incrementalIndexing ↔ 64 ≤ b.toNat ∧ b.toNat < 128) ∧
    (prefixClass b.toNat = .sizeUpdate ↔ 32 ≤ b.toNat ∧ b.toNat < 64) ∧
    (prefixClass b.toNat = .neverIndexed ↔ 16 ≤ b.toNat ∧ b.toNat < 32) ∧
    (prefixClass b.toNat = .withoutIndexing ↔ b.toNat < 16) := by
  refine of_decide_eq_true <| u8_all (p := fun b =>
    (prefixClass b.toNat = .indexed ↔ 128 ≤ b.toNat) ∧
    (prefixClass b.toNat = .incrementalIndexing ↔ 64 ≤ b.toNat ∧ b.toNat < 128) ∧
    (prefixClass b.toNat = .sizeUpdate ↔ 32 ≤ b.toNat ∧ b.toNat < 64) ∧
    (prefixClass b.toNat = .neverIndexed ↔ 16 ≤ b.toNat ∧ b.toNat < 32) ∧
    (prefixClass b.toNat = .withoutIndexing ↔ b.toNat < 16)) (by decide +kernel) b

theorem indexBits_eq (b : UInt8) (n : Nat) :
    indexBits b = some n ↔ prefixClass b.toNat ≠ .sizeUpdate ∧ n = nbits (prefixClass b.toNat) := by
  have : indexBits b = if prefixClass b.toNat = .sizeUpdate then none
      else some (nbits (prefixClass b.toNat)) :=
    of_decide_eq_true <| u8_all (p := fun b => indexBits b =
      if prefixClass b.toNat = .sizeUpdate then none else some (nbits (prefixClass b.toNat)))
      (by decide +kernel) b
  rw [this]
  split
  · rename_i hp; simp [hp]
  · rename_i hp
    exact ⟨fun h => ⟨hp, (Option.some.inj h).symm⟩, fun h => by rw [h.2]⟩

theorem nbits_range (p : HeaderPrefix) : 1 ≤ nbits p ∧ nbits p ≤ 8 := by cases p <;> decide

/-- The item reader, what it accepts. -/
theorem item_ok [Platform] {v : Bytes} {t : DynamicTable} {e : HeaderEntry} {k : Nat}
    (h : decodeHeader v t = .ok (e, k)) :
    k ≤ v.length ∧ ∃ item, e = entryOf item ∧ LooseItem t.entries v item (v.drop k) := by
  cases v with
  | nil => simp [decodeHeader, front] at h
  | cons b bs =>
      obtain ⟨c1, c2, c3, c4, c5⟩ := prefixClass_cases b
      by_cases hp : prefixClass b.toNat = .sizeUpdate
      · rw [header_size_eq b bs t hp] at h
        obtain ⟨⟨n, m⟩, h1, h2⟩ := Res.bind_eq_ok.1 h
        injection h2 with h2
        injection h2 with h3 h4
        subst h3 h4
        obtain ⟨g1, g2⟩ := (int_ok (by omega) (by omega) _ _ _).1 h1
        exact ⟨g1, .sizeUpdate n, rfl, .sizeUpdate b bs _ n (c3.1 hp) g2⟩
      · obtain ⟨n1, n8⟩ := nbits_range (prefixClass b.toNat)
        cases hi : decodeIntWithLength (nbits (prefixClass b.toNat)) (b :: bs) with
        | ok x =>
            obtain ⟨i, il⟩ := x
            rw [header_eq b bs t hp hi] at h
            obtain ⟨g1, g2⟩ := (int_ok n1 n8 _ _ _).1 hi
            cases hf : looseField t.entries i with
            | none => rw [hf] at h; cases h
            | some f =>
                rw [hf] at h
                simp only at h
                split at h
                · rename_i hx
                  injection h with h
                  injection h with h1 h2
                  subst h1 h2
                  rw [hx] at g2
                  exact ⟨g1, .indexed f, rfl, .indexed b bs _ i f (c1.1 hx) g2 hf⟩
                · obtain ⟨k1, f', rfl, k3⟩ := text_ok h
                  refine ⟨k1, ?_⟩
                  cases hc : prefixClass b.toNat with
                  | indexed => contradiction
                  | sizeUpdate => contradiction
                  | incrementalIndexing =>
                      rw [hc] at g2
                      exact ⟨.incremental f', rfl, .incremental b bs _ f' (c2.1 hc) ⟨i, _, f, g2, hf, k3⟩⟩
                  | neverIndexed =>
                      rw [hc] at g2
                      exact ⟨.neverIndexed f', rfl, .neverIndexed b bs _ f' (c4.1 hc) ⟨i, _, f, g2, hf, k3⟩⟩
                  | withoutIndexing =>
                      rw [hc] at g2
                      exact ⟨.withoutIndexing f', rfl,
                        .withoutIndexing b bs _ f' (c5.1 hc) ⟨i, _, f, g2, hf, k3⟩⟩
        | _ =>
            unfold decodeHeader at h
            simp only [front, Res.ok_bind, checkPrefix_eq] at h
            rw [if_neg hp, decodeIndex_eq hp, hi] at h
            cases h

theorem LooseLiteral.drop [Platform] {b : UInt8} {bs : Bytes} {t : DynamicTable} {f : Field}
    {rest : Bytes} (hp : prefixClass b.toNat ≠ .sizeUpdate) (hx : prefixClass b.toNat ≠ .indexed)
    (h : LooseLiteral t.entries (nbits (prefixClass b.toNat)) (b :: bs) f rest) :
    ∃ k, 1 ≤ k ∧ k ≤ (b :: bs).length ∧ rest = (b :: bs).drop k ∧
      decodeHeader (b :: bs) t = .ok (.ofHeader (prefixClass b.toNat) f, k) := by
  obtain ⟨i, rest1, named, h1, h2, h3⟩ := h
  obtain ⟨n1, n8⟩ := nbits_range (prefixClass b.toNat)
  obtain ⟨il, g1, g2, rfl, g4⟩ := h1.drop n1 n8
  obtain ⟨m, k1, k2, k3, k4⟩ := LooseText.drop (prefixClass b.toNat) g2 h3
  refine ⟨m, by omega, k2, k3, ?_⟩
  rw [header_eq b bs t hp g4, h2]
  simp only
  rw [if_neg hx, k4]

theorem LooseItem.drop [Platform] {v : Bytes} {t : DynamicTable} {item : Item} {rest : Bytes}
    (h : LooseItem t.entries v item rest) :
    ∃ k, 1 ≤ k ∧ k ≤ v.length ∧ rest = v.drop k ∧ decodeHeader v t = .ok (entryOf item, k) := by
  cases h with
  | indexed b bs _ i f hb hi hf =>
      have hc := (prefixClass_cases b).1.2 hb
      obtain ⟨k, g1, g2, g3, g4⟩ := hi.drop (by omega) (by omega)
      refine ⟨k, g1, g2, g3, ?_⟩
      rw [header_eq b bs t (by rw [hc]; decide) (by rw [hc]; exact g4), hf]
      simp only
      rw [if_pos hc]
      rfl
  | incremental b bs _ f hb hl =>
      have hc := (prefixClass_cases b).2.1.2 hb
      obtain ⟨k, g1, g2, g3, g4⟩ := LooseLiteral.drop (t := t) (f := f) (rest := rest) (bs := bs)
        (by rw [hc]; decide) (by rw [hc]; decide) (by rw [hc]; exact hl)
      exact ⟨k, g1, g2, g3, by rw [g4, hc]; rfl⟩
  | sizeUpdate b bs _ n hb hi =>
      have hc := (prefixClass_cases b).2.2.1.2 hb
      obtain ⟨k, g1, g2, g3, g4⟩ := hi.drop (by omega) (by omega)
      exact ⟨k, g1, g2, g3, by rw [header_size_eq b bs t hc, g4]; rfl⟩
  | neverIndexed b bs _ f hb hl =>
      have hc := (prefixClass_cases b).2.2.2.1.2 hb
      obtain ⟨k, g1, g2, g3, g4⟩ := LooseLiteral.drop (t := t) (f := f) (rest := rest) (bs := bs)
        (by rw [hc]; decide) (by rw [hc]; decide) (by rw [hc]; exact hl)
      exact ⟨k, g1, g2, g3, by rw [g4, hc]; rfl⟩
  | withoutIndexing b bs _ f hb hl =>
      have hc := (prefixClass_cases b).2.2.2.2.2 hb
      obtain ⟨k, g1, g2, g3, g4⟩ := LooseLiteral.drop (t := t) (f := f) (rest := rest) (bs := bs)
        (by rw [hc]; decide) (by rw [hc]; decide) (by rw [hc]; exact hl)
      exact ⟨k, g1, g2, g3, by rw [g4, hc]; rfl⟩

/-- The item reader, what it rejects. -/
theorem item_throw [Platform] (v : Bytes) (t : DynamicTable) (e : Exc) :
    decodeHeader v t = .throw e ↔
      (e = .outOfRange ∧ MissingItem t.entries v) ∨
      (e = .invalidArgument ∧ BadStringItem t.entries v) := by
  constructor
  · intro h
    cases v with
    | nil => simp [decodeHeader, front] at h
    | cons b bs =>
        by_cases hp : prefixClass b.toNat = .sizeUpdate
        · rw [header_size_eq b bs t hp] at h
          rcases bind_eq_throw h with h1 | ⟨_, -, h2⟩
          · exact absurd h1 (decodeIntWithLength_ne_throw _ _ _)
          · cases h2
        obtain ⟨n1, n8⟩ := nbits_range (prefixClass b.toNat)
        have hn := (indexBits_eq b _).2 ⟨hp, rfl⟩
        cases hi : decodeIntWithLength (nbits (prefixClass b.toNat)) (b :: bs) with
        | ok x =>
            obtain ⟨i, il⟩ := x
            rw [header_eq b bs t hp hi] at h
            obtain ⟨g1, g2⟩ := (int_ok n1 n8 _ _ _).1 hi
            cases hf : looseField t.entries i with
            | none =>
                rw [hf] at h
                injection h with h
                exact Or.inl ⟨h.symm, b, bs, _, i, _, rfl, hn, g2, looseField_none.1 hf⟩
            | some f =>
                rw [hf] at h
                simp only at h
                split at h
                · cases h
                · rename_i hx
                  obtain ⟨k1, k2⟩ := (text_throw _ g1 _).1 h
                  have hb : b.toNat < 128 := by
                    by_contra hh
                    exact hx ((prefixClass_cases b).1.2 (by omega))
                  exact Or.inr ⟨k1, b, bs, _, i, _, f, rfl, hb, hn, g2, hf, k2⟩
        | throw e' => exact absurd hi (decodeIntWithLength_ne_throw _ _ _)
        | _ =>
            unfold decodeHeader at h
            simp only [front, Res.ok_bind, checkPrefix_eq] at h
            rw [if_neg hp, decodeIndex_eq hp, hi] at h
            cases h
  · rintro (⟨rfl, b, bs, n, i, rest, rfl, hn, hi, hm⟩ |
      ⟨rfl, b, bs, n, i, rest, f, rfl, hb, hn, hi, hf, ht⟩)
    · obtain ⟨hp, rfl⟩ := (indexBits_eq b n).1 hn
      obtain ⟨n1, n8⟩ := nbits_range (prefixClass b.toNat)
      obtain ⟨k, g1, g2, g3, g4⟩ := hi.drop n1 n8
      rw [header_eq b bs t hp g4, looseField_none.2 hm]
    · obtain ⟨hp, rfl⟩ := (indexBits_eq b n).1 hn
      obtain ⟨n1, n8⟩ := nbits_range (prefixClass b.toNat)
      obtain ⟨k, g1, g2, rfl, g4⟩ := hi.drop n1 n8
      rw [header_eq b bs t hp g4, hf]
      simp only
      rw [if_neg (fun hh => by have := (prefixClass_cases b).1.1 hh; omega)]
      exact (text_throw _ g2 _).2 ⟨rfl, ht⟩

theorem headersOf_entryOf (items : List Item) : headersOf (items.map entryOf) = fields items := by
  unfold headersOf fields
  rw [List.filterMap_map]
  congr 1
  funext item
  cases item <;> rfl

end Mh2c
