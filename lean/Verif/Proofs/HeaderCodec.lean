/-
Helper lemmas about header representations.
-/
import Verif.Model.HeaderEncoder
import Verif.Proofs.IntRep
import Verif.Proofs.HuffmanDecode
import Verif.Proofs.Tables
import Verif.Spec.Wire

namespace Mh2c

open Rfc

/-! ### Integers -/

/-- An encoded integer with the bits `hi` above the prefix. -/
def intEnc (n v : Nat) (hi : UInt8) : Bytes :=
  match encodeIntegerValue n v with
  | [] => []
  | b :: bs => (b ||| hi) :: bs

theorem orFirst_int (n v : Nat) (hi : UInt8) :
    orFirst hi (encodeIntegerValue n v) = .ok (intEnc n v hi) := by
  unfold intEnc
  cases h : encodeIntegerValue n v with
  | nil => exact absurd h (encodeIntegerValue_ne_nil n v)
  | cons b bs => rfl

theorem intEnc_length (n v : Nat) (hi : UInt8) :
    (intEnc n v hi).length = (encodeIntegerValue n v).length := by
  unfold intEnc
  cases encodeIntegerValue n v <;> rfl

theorem intDecode_intEnc {n : Nat} (hn : n ≤ 8) (v : Nat) {hi : UInt8} (hhi : hi.toNat % 2 ^ n = 0)
    (rest : Bytes) : intDecode n (intEnc n v hi ++ rest) = some (v, rest) := by
  unfold intEnc
  cases h : encodeIntegerValue n v with
  | nil => exact absurd h (encodeIntegerValue_ne_nil n v)
  | cons b bs => exact intDecode_encode n v hn hi hhi b bs rest h

theorem intEnc_cons {n : Nat} (hn : n ≤ 8) (v : Nat) {hi : UInt8} (hhi : hi.toNat % 2 ^ n = 0) :
    ∃ b bs, intEnc n v hi = b :: bs ∧ b.toNat = hi.toNat + min v (2 ^ n - 1) := by
  obtain ⟨b, bs, h1, h2, -⟩ := encodeIntegerValue_cons n v hn
  refine ⟨b ||| hi, bs, by unfold intEnc; rw [h1], ?_⟩
  rw [UInt8.toNat_or, Nat.or_comm]
  have hb : b.toNat < 2 ^ n := by have := Nat.two_pow_pos n; omega
  obtain ⟨q, hq⟩ := Nat.dvd_of_mod_eq_zero hhi
  rw [hq, Nat.mul_comm, or_low q hb, h2]

theorem decodeIntWithLength_of {n : Nat} (hn : n ≤ 8) {bs rest : Bytes} {v : Nat}
    (h : intDecode n bs = some (v, rest)) (hv : v < 2 ^ n - 1 + 2 ^ 31)
    (hmin : bs.length - rest.length = (encodeIntegerValue n v).length) :
    decodeIntWithLength n bs = .ok (v, bs.length - rest.length) := by
  unfold decodeIntWithLength
  have hd : decodeIntegerValue n bs = .ok v := by
    rw [decodeIntegerValue_spec n hn]
    exact ⟨rest, h, by rw [hmin]; exact encodeIntegerValue_length_le n v hn hv, hv⟩
  rw [hd, Res.ok_bind, Res.pure_eq, hmin]

/-- The integer reader of the client: what it reads with the right length. -/
def clientInt (n : Nat) (bs : List UInt8) : Option (Nat × List UInt8) :=
  match intDecode n bs with
  | some (v, rest) =>
      if v < 2 ^ n - 1 + 2 ^ 31 ∧ bs.length - rest.length = (encodeIntegerValue n v).length then
        some (v, rest) else none
  | none => none

theorem clientInt_eq_some {n : Nat} {bs rest : Bytes} {v : Nat} :
    clientInt n bs = some (v, rest) ↔ intDecode n bs = some (v, rest) ∧ v < 2 ^ n - 1 + 2 ^ 31 ∧
      bs.length - rest.length = (encodeIntegerValue n v).length := by
  unfold clientInt
  cases h : intDecode n bs with
  | none => simp
  | some p =>
      obtain ⟨w, r⟩ := p
      simp only
      constructor
      · intro h1
        split at h1
        · rename_i hc
          obtain ⟨rfl, rfl⟩ := Prod.mk.inj (Option.some.inj h1)
          exact ⟨rfl, hc⟩
        · cases h1
      · rintro ⟨h1, h2⟩
        obtain ⟨rfl, rfl⟩ := Prod.mk.inj (Option.some.inj h1)
        rw [if_pos h2]

theorem clientInt_intEnc {n : Nat} (hn : n ≤ 8) {v : Nat} (hv : v < 2 ^ n - 1 + 2 ^ 31) {hi : UInt8}
    (hhi : hi.toNat % 2 ^ n = 0) (rest : Bytes) :
    clientInt n (intEnc n v hi ++ rest) = some (v, rest) := by
  rw [clientInt_eq_some]
  refine ⟨intDecode_intEnc hn v hhi rest, hv, ?_⟩
  rw [List.length_append, intEnc_length]
  omega

/-- Minimal representations are read correctly. -/
theorem clientInt_of_minimal {n : Nat} (hn8 : n ≤ 8) {bs rest : Bytes} {v : Nat}
    (h : intDecodeMinimal n bs = some (v, rest)) : clientInt n bs = some (v, rest) := by
  unfold intDecodeMinimal at h
  cases hd : intDecode n bs with
  | none => rw [hd] at h; cases h
  | some p =>
      obtain ⟨w, r⟩ := p
      rw [hd] at h
      simp only at h
      split at h
      · rename_i hc
        obtain ⟨rfl, rfl⟩ := Prod.mk.inj (Option.some.inj h)
        rw [clientInt_eq_some]
        refine ⟨hd, by omega, ?_⟩
        have hle := encode_length_le_used hn8 hd
        have hlen := (intDecode_length hd).1
        obtain ⟨b, cs, h1, -, h3⟩ := encodeIntegerValue_cons n w hn8
        rcases intDecode_bounds hd with ⟨hb1, hb2⟩ | ⟨hb1, hb2, hb3⟩
        · rw [h1, h3, if_pos hb1]; simpa using hb2
        · rw [h1, h3, if_neg (by omega)] at hle ⊢
          simp only [List.length_cons] at hle ⊢
          have hne := List.length_pos_iff.2 (encodeIntTail_ne_nil (w - (2 ^ n - 1)))
          rcases hc.2 with hu | hu
          · omega
          · by_cases hu2 : bs.length - r.length ≤ 2
            · omega
            · have := (encodeIntTail_length (w - (2 ^ n - 1)) (bs.length - r.length - 2) (by omega))
              by_contra hcon
              have := this.1 (by omega)
              omega
      · cases h

theorem decodeIntWithLength_clientInt {n : Nat} (hn : n ≤ 8) {bs rest : Bytes} {v : Nat}
    (h : clientInt n bs = some (v, rest)) :
    decodeIntWithLength n bs = .ok (v, bs.length - rest.length) ∧ rest.length < bs.length ∧
      rest = bs.drop (bs.length - rest.length) := by
  rw [clientInt_eq_some] at h
  exact ⟨decodeIntWithLength_of hn h.1 h.2.1 h.2.2, intDecode_length h.1⟩

/-! ### Strings -/

theorem addressRange_zero [P : Platform] {s : Bytes} (ht : Tolerant s) :
    addressRange s 0 s.length = .ok s := by
  unfold addressRange
  rw [if_pos (by omega), if_neg]
  · simp
  · rintro ⟨h1, h2⟩
    rcases ht with ht | ht
    · rw [ht] at h2; cases h2
    · exact ht (List.length_eq_zero_iff.1 h1.symm)

theorem highBits_one (b : UInt8) : highBits 8 1 b.toNat ≠ 0 ↔ 128 ≤ b.toNat := by
  rw [highBits_eq]
  have := b.toNat_lt
  norm_num

theorem decodeHeaderString_of [P : Platform] {bs s rest : Bytes}
    (h : StringAt clientInt bs s rest) (ht : Tolerant s) :
    decodeHeaderString bs = .ok (s, bs.length - rest.length) ∧ rest.length < bs.length ∧
      rest = bs.drop (bs.length - rest.length) := by
  have key : ∀ (bs data rest : Bytes), clientInt 7 bs = some (data.length, data ++ rest) →
      decodeIntWithLength 7 bs = .ok (data.length, bs.length - (data.length + rest.length)) ∧
      (data ++ rest).length < bs.length ∧
      bs.drop (bs.length - (data.length + rest.length)) = data ++ rest ∧
      rest = bs.drop (bs.length - rest.length) := by
    intro bs data rest hi
    obtain ⟨h1, h2, h3⟩ := decodeIntWithLength_clientInt (by omega) hi
    rw [List.length_append] at h1 h2 h3
    refine ⟨h1, by rw [List.length_append]; exact h2, h3.symm, ?_⟩
    have : bs.length - rest.length = bs.length - (data.length + rest.length) + data.length := by omega
    rw [this, ← List.drop_drop, ← h3, List.drop_left]
  cases h with
  | plain b bs data rest hb hi =>
      obtain ⟨h1, h2, h3, h4⟩ := key _ _ _ hi
      rw [List.length_append] at h2
      refine ⟨?_, by omega, h4⟩
      unfold decodeHeaderString
      rw [h1, Res.ok_bind]
      simp only [front, Res.ok_bind]
      rw [if_neg (by rw [highBits_one]; omega)]
      have ha : addressRange (b :: bs) ((b :: bs).length - (s.length + rest.length)) s.length
          = .ok s := by
        unfold addressRange
        rw [if_pos (by omega), if_neg]
        · rw [h3, List.take_left]
        · rintro ⟨e1, e2⟩
          rcases ht with ht | ht
          · rw [ht] at e2; cases e2
          · have := List.length_pos_iff.2 ht
            omega
      rw [ha, Res.ok_bind, Res.pure_eq]
      congr 2
      omega
  | huffman b bs data s rest hb hi hs =>
      obtain ⟨h1, h2, h3, h4⟩ := key _ _ _ hi
      rw [List.length_append] at h2
      refine ⟨?_, by omega, h4⟩
      unfold decodeHeaderString
      rw [h1, Res.ok_bind]
      simp only [front, Res.ok_bind]
      rw [if_pos (by rw [highBits_one]; omega)]
      have hc : copyRange (b :: bs) ((b :: bs).length - (data.length + rest.length)) data.length
          = .ok data := by
        unfold copyRange
        rw [if_pos (by omega), h3, List.take_left]
      rw [hc, Res.ok_bind, decode_of_rfc hs, Res.ok_bind, addressRange_zero ht, Res.ok_bind,
        Res.pure_eq]
      congr 2
      omega

/-- The octets of a string literal. -/
theorem encodeHeaderValue_spec (s : Bytes) (mode : EncodeMode) :
    ∃ data, encodeHeaderValue s mode = .ok (intEnc 7 data.length mode.value ++ data) ∧
      encodeHeaderName s mode = .ok (intEnc 7 data.length mode.value ++ data) ∧
      (mode = .none → data = s) ∧ (mode = .huffman → HuffDecodes data s) := by
  unfold encodeHeaderValue encodeHeaderName
  cases mode with
  | none =>
      refine ⟨s, ?_, ?_, fun _ => rfl, fun h => by cases h⟩ <;> simp [orFirst_int]
  | huffman =>
      obtain ⟨enc, h1, h2⟩ := encode_rfc s
      refine ⟨enc, ?_, ?_, fun h => (by cases h), fun _ => h2⟩ <;> simp [orFirst_int, h1]

theorem wireLength_of {data s : Bytes} {mode : EncodeMode} (h1 : mode = .none → data = s)
    (h2 : mode = .huffman → HuffDecodes data s) : data.length = wireLength s mode := by
  cases mode with
  | none => rw [h1 rfl]; rfl
  | huffman =>
      obtain ⟨pad, g1, g2, -⟩ := h2 rfl
      have := congrArg List.length g1
      rw [bytesBits_length, List.length_append] at this
      unfold wireLength
      simp only
      omega

/-- An encoded string is an RFC string literal, for every reader that understands the length. -/
theorem stringAt_of {int : IntReader} {data s : Bytes} {mode : EncodeMode}
    (h1 : mode = .none → data = s) (h2 : mode = .huffman → HuffDecodes data s) (rest : Bytes)
    (hint : int 7 (intEnc 7 data.length mode.value ++ (data ++ rest)) =
      some (data.length, data ++ rest)) :
    StringAt int (intEnc 7 data.length mode.value ++ data ++ rest) s rest := by
  rw [List.append_assoc]
  have hhi : mode.value.toNat % 2 ^ 7 = 0 := by cases mode <;> decide
  obtain ⟨b, bs, hc, hb⟩ := intEnc_cons (n := 7) (by omega) data.length hhi
  rw [hc] at hint ⊢
  rw [List.cons_append] at hint ⊢
  cases mode with
  | none =>
      obtain rfl := h1 rfl
      refine .plain b _ data rest ?_ hint
      rw [hb]
      show 0 + _ < 128
      omega
  | huffman =>
      refine .huffman b _ data s rest ?_ hint (h2 rfl)
      rw [hb]
      show 128 ≤ 128 + _
      omega

/-! ### First octet -/

/-- RFC 7541 section 6: class of a first octet. -/
def prefixClass (b : Nat) : HeaderPrefix :=
  if 128 ≤ b then .indexed
  else if 64 ≤ b then .incrementalIndexing
  else if 32 ≤ b then .sizeUpdate
  else if 16 ≤ b then .neverIndexed
  else .withoutIndexing

theorem checkPrefix_eq (b : UInt8) : checkPrefix b = .ok (prefixClass b.toNat) := by
  have h : ∀ x < 256, checkPrefix (u8 x) = .ok (prefixClass x) := by decide +kernel
  have := h b.toNat b.toNat_lt
  simpa using this

/-! ### Decoding a representation -/

theorem eraseFirst_drop {n : Nat} {v : Bytes} (h : n ≤ v.length) : eraseFirst n v = .ok (v.drop n) := by
  unfold eraseFirst; rw [if_pos h]

theorem decodeLiteral_of [P : Platform] {n : Nat} (hn : n ≤ 8) {getName : Nat → Option Field}
    {table : DynamicTable}
    (hget : ∀ i f, getName i = some f → 0 < i ∧ makeIndexedHeader i table = .ok f ∧ f.1 ≠ [])
    {bs rest : Bytes} {f : Field} (h : LiteralAt clientInt getName n bs f rest)
    (ht : Tolerant f.1 ∧ Tolerant f.2) (p : HeaderPrefix) :
    ∃ index indexLength ih, decodeIntWithLength n bs = .ok (index, indexLength) ∧
      (if index > 0 then makeIndexedHeader index table else .ok ([], [])) = .ok ih ∧
      decodeLiteral bs p ih indexLength = .ok (.ofHeader p f, bs.length - rest.length) ∧
      rest.length < bs.length ∧ rest = bs.drop (bs.length - rest.length) := by
  cases h with
  | indexedName rest1 rest i g value hi hf hv =>
      obtain ⟨h1, h2, h3⟩ := decodeIntWithLength_clientInt hn hi
      obtain ⟨g0, g1, g2⟩ := hget i g hf
      obtain ⟨s1, s2, s3⟩ := decodeHeaderString_of hv ht.2
      refine ⟨i, bs.length - rest1.length, g, h1, by rw [if_pos g0]; exact g1, ?_, by omega, ?_⟩
      · unfold decodeLiteral
        rw [eraseFirst_drop (by omega), Res.ok_bind, ← h3, if_neg
          (fun h => g2 (List.length_eq_zero_iff.1 h)), s1, Res.ok_bind]
        simp only
        rw [eraseFirst_drop (by omega), Res.ok_bind, Res.pure_eq]
        congr 2
        omega
      · have : bs.length - rest.length =
            (bs.length - rest1.length) + (rest1.length - rest.length) := by omega
        rw [this, ← List.drop_drop, ← h3]
        exact s3
  | newName rest1 rest2 rest name value hi hnm hv =>
      obtain ⟨h1, h2, h3⟩ := decodeIntWithLength_clientInt hn hi
      obtain ⟨n1, n2, n3⟩ := decodeHeaderString_of hnm ht.1
      obtain ⟨s1, s2, s3⟩ := decodeHeaderString_of hv ht.2
      refine ⟨0, bs.length - rest1.length, ([], []), h1, by simp, ?_, by omega, ?_⟩
      · unfold decodeLiteral
        rw [eraseFirst_drop (by omega), Res.ok_bind, ← h3, if_pos (show List.length (([], []) : Header).1 = 0 from rfl), n1, Res.ok_bind]
        simp only
        rw [eraseFirst_drop (by omega), Res.ok_bind, ← n3, s1, Res.ok_bind]
        simp only
        rw [eraseFirst_drop (by omega), Res.ok_bind, Res.pure_eq]
        congr 2
        omega
      · have : bs.length - rest.length =
            (bs.length - rest1.length) + ((rest1.length - rest2.length) + (rest2.length - rest.length)) := by
          omega
        rw [this, ← List.drop_drop, ← h3, ← List.drop_drop, ← n3]
        exact s3

theorem decodeHeader_of [P : Platform] {get getName : Nat → Option Field} {table : DynamicTable}
    (hget : ∀ i f, get i = some f → 0 < i ∧ makeIndexedHeader i table = .ok f)
    (hname : ∀ i f, getName i = some f → 0 < i ∧ makeIndexedHeader i table = .ok f ∧ f.1 ≠ [])
    {bs rest : Bytes} {item : Item} (h : ItemAt clientInt get getName bs item rest)
    (ht : ItemTolerant item) :
    decodeHeader bs table = .ok (entryOf item, bs.length - rest.length) ∧
      rest.length < bs.length ∧ rest = bs.drop (bs.length - rest.length) := by
  cases h with
  | indexed b bs rest i f hb hi hf =>
      obtain ⟨h1, h2, h3⟩ := decodeIntWithLength_clientInt (by omega) hi
      obtain ⟨g0, g1⟩ := hget i f hf
      refine ⟨?_, h2, h3⟩
      unfold decodeHeader
      simp only [front, Res.ok_bind, checkPrefix_eq]
      have hc : prefixClass b.toNat = .indexed := by unfold prefixClass; rw [if_pos hb]
      rw [hc, if_neg (by decide)]
      simp only [decodeIndex, h1, Res.ok_bind]
      rw [if_pos g0, g1, Res.ok_bind, if_pos trivial]
      rfl
  | incremental b bs rest f hb hl =>
      obtain ⟨index, il, ih, h1, h2, h3, h4, h5⟩ :=
        decodeLiteral_of (by omega) hname hl ht .incrementalIndexing
      refine ⟨?_, h4, h5⟩
      unfold decodeHeader
      simp only [front, Res.ok_bind, checkPrefix_eq]
      have hc : prefixClass b.toNat = .incrementalIndexing := by
        unfold prefixClass; rw [if_neg (by omega), if_pos hb.1]
      rw [hc, if_neg (by decide)]
      simp only [decodeIndex, h1, Res.ok_bind]
      by_cases hix : index > 0
      · rw [if_pos hix] at h2 ⊢
        rw [h2, Res.ok_bind, if_neg (by decide), h3]
        rfl
      · rw [if_neg hix] at h2 ⊢
        rw [← Res.ok.inj h2] at h3
        rw [if_neg (by decide), h3]
        rfl
  | sizeUpdate b bs rest n hb hi =>
      obtain ⟨h1, h2, h3⟩ := decodeIntWithLength_clientInt (by omega) hi
      refine ⟨?_, h2, h3⟩
      unfold decodeHeader
      simp only [front, Res.ok_bind, checkPrefix_eq]
      have hc : prefixClass b.toNat = .sizeUpdate := by
        unfold prefixClass; rw [if_neg (by omega), if_neg (by omega), if_pos hb.1]
      rw [hc, if_pos rfl]
      simp only [decodeMaxSize, h1, Res.ok_bind]
      rfl
  | neverIndexed b bs rest f hb hl =>
      obtain ⟨index, il, ih, h1, h2, h3, h4, h5⟩ :=
        decodeLiteral_of (by omega) hname hl ht .neverIndexed
      refine ⟨?_, h4, h5⟩
      unfold decodeHeader
      simp only [front, Res.ok_bind, checkPrefix_eq]
      have hc : prefixClass b.toNat = .neverIndexed := by
        unfold prefixClass
        rw [if_neg (by omega), if_neg (by omega), if_neg (by omega), if_pos hb.1]
      rw [hc, if_neg (by decide)]
      simp only [decodeIndex, h1, Res.ok_bind]
      by_cases hix : index > 0
      · rw [if_pos hix] at h2 ⊢
        rw [h2, Res.ok_bind, if_neg (by decide), h3]
        rfl
      · rw [if_neg hix] at h2 ⊢
        rw [← Res.ok.inj h2] at h3
        rw [if_neg (by decide), h3]
        rfl
  | withoutIndexing b bs rest f hb hl =>
      obtain ⟨index, il, ih, h1, h2, h3, h4, h5⟩ :=
        decodeLiteral_of (by omega) hname hl ht .withoutIndexing
      refine ⟨?_, h4, h5⟩
      unfold decodeHeader
      simp only [front, Res.ok_bind, checkPrefix_eq]
      have hc : prefixClass b.toNat = .withoutIndexing := by
        unfold prefixClass
        rw [if_neg (by omega), if_neg (by omega), if_neg (by omega), if_neg (by omega)]
      rw [hc, if_neg (by decide)]
      simp only [decodeIndex, h1, Res.ok_bind]
      by_cases hix : index > 0
      · rw [if_pos hix] at h2 ⊢
        rw [h2, Res.ok_bind, if_neg (by decide), h3]
        rfl
      · rw [if_neg hix] at h2 ⊢
        rw [← Res.ok.inj h2] at h3
        rw [if_neg (by decide), h3]
        rfl

end Mh2c
