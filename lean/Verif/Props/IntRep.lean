/-
C07-C09: HPACK integers.
-/
import Verif.Proofs.IntRep
import Verif.Model.HeaderDecoder

namespace Mh2c

open Rfc

/-! ## C07 -/

/-- C07. Decoding an encoded integer returns it, for every prefix size, every setting `hi` of the
bits above the prefix and every continuation of the buffer. -/
theorem C07_round_trip (n v : Nat) (_hn : 1 ≤ n) (hn8 : n ≤ 8) (hv : v < 2 ^ 31 + 2 ^ n - 1)
    (hi : UInt8) (hhi : hi.toNat % 2 ^ n = 0) (rest : Bytes) :
    ∃ b bs, encodeIntegerValue n v = b :: bs ∧
      decodeIntegerValue n ((b ||| hi) :: bs ++ rest) = .ok v := by
  obtain ⟨b, bs, h, -, -⟩ := encodeIntegerValue_cons n v hn8
  exact ⟨b, bs, h, decodeIntegerValue_encode n v hn8 (by omega) hi hhi b bs rest h⟩

/-- C07. The bound is exact: for every larger value the decoder has undefined behaviour. -/
theorem C07_domain_exact (n v : Nat) (_hn : 1 ≤ n) (hn8 : n ≤ 8) (hv : 2 ^ 31 + 2 ^ n - 1 ≤ v)
    (hi : UInt8) (hhi : hi.toNat % 2 ^ n = 0) (rest : Bytes) :
    ∃ b bs, encodeIntegerValue n v = b :: bs ∧
      (decodeIntegerValue n ((b ||| hi) :: bs ++ rest)).IsUb := by
  obtain ⟨b, bs, h, -, -⟩ := encodeIntegerValue_cons n v hn8
  refine ⟨b, bs, h, ?_⟩
  rcases decodeIntegerValue_ok_or_ub n ((b ||| hi) :: bs ++ rest) with ⟨w, hw⟩ | hub
  · rw [decodeIntegerValue_spec n hn8] at hw
    obtain ⟨r, h1, -, h3⟩ := hw
    rw [intDecode_encode n v hn8 hi hhi b bs rest h] at h1
    simp only [Option.some.injEq, Prod.mk.injEq] at h1
    omega
  · exact hub

example : (1337 : Nat) < 2 ^ 31 + 2 ^ 5 - 1 ∧ (0xe0 : UInt8).toNat % 2 ^ 5 = 0 ∧
    decodeIntegerValue 5 ([0x1f ||| 0xe0, 0x9a, 0x0a] ++ [7, 7]) = .ok 1337 := by decide
example : encodeIntegerValue 5 1337 = [0x1f, 0x9a, 0x0a] := by
  decide +kernel
example : decodeIntegerValue 5 [0x1f, 0x80, 0x80, 0x80, 0x80, 0x08] = .ub .signedOverflow := by
  decide

/-! ## C08 -/

/-- C08. The encoder produces an RFC 7541 5.1 representation of the value, and no shorter octet
string represents it. -/
theorem C08_minimal_rfc_form (n v : Nat) (_hn : 1 ≤ n) (hn8 : n ≤ 8) :
    encodeIntegerValue n v ≠ [] ∧ intDecode n (encodeIntegerValue n v) = some (v, []) ∧
      ∀ bs, intDecode n bs = some (v, []) → (encodeIntegerValue n v).length ≤ bs.length := by
  refine ⟨encodeIntegerValue_ne_nil n v, ?_, ?_⟩
  · obtain ⟨b, bs, h, -, -⟩ := encodeIntegerValue_cons n v hn8
    have := intDecode_encode n v hn8 0 (by simp) b bs [] h
    rw [h]
    simpa using this
  · intro bs hbs
    have := encode_length_le_used hn8 hbs
    simpa using this

example : intDecode 5 [0x1f, 0x9a, 0x0a] = some (1337, []) ∧
    intDecode 5 [0x1f, 0x9a, 0x8a, 0x00] = some (1337, []) := by decide

/-! ## C09 -/

/-- C09. The decoder returns `v` exactly when RFC 7541 5.1 assigns `v` to the start of the buffer,
with at most five octets after the prefix and `v` below 2^31 + 2^N - 1; otherwise (truncated
buffer, value or octet count too large) its behaviour is undefined. -/
theorem C09_value_exact (n : Nat) (_hn : 1 ≤ n) (hn8 : n ≤ 8) (bs : Bytes) :
    (∀ v, decodeIntegerValue n bs = .ok v ↔
      ∃ rest, intDecode n bs = some (v, rest) ∧ bs.length - rest.length ≤ 6 ∧
        v < 2 ^ 31 + 2 ^ n - 1) ∧
    ((∀ v, decodeIntegerValue n bs ≠ .ok v) → (decodeIntegerValue n bs).IsUb) := by
  constructor
  · intro v
    rw [decodeIntegerValue_spec n hn8]
    have : 0 < (2 : Nat) ^ n := Nat.pow_pos (by omega)
    have e : 2 ^ 31 + 2 ^ n - 1 = 2 ^ n - 1 + 2 ^ 31 := by omega
    rw [e]
  · intro h
    rcases decodeIntegerValue_ok_or_ub n bs with ⟨w, hw⟩ | hub
    · exact absurd hw (h w)
    · exact hub

example : decodeIntegerValue 5 [0xff, 0x9a, 0x0a, 1] = .ok 1337 ∧
    decodeIntegerValue 5 [0xff, 0x9a] = .ub .outOfBounds := by decide

/-- C09, true part. The octet count the header decoder advances by never exceeds the octets the
integer occupies, and equals their number exactly for integers in minimal form (no representation
of the same value occupies fewer octets). Missing from the full statement: non-minimal integers,
for which the claim is false (`C09_consumption_violated`). -/
theorem C09_consumption_partial (n : Nat) (_hn : 1 ≤ n) (hn8 : n ≤ 8) (bs : Bytes) (v len : Nat)
    (h : decodeIntWithLength n bs = .ok (v, len)) :
    ∃ rest, intDecode n bs = some (v, rest) ∧ 1 ≤ len ∧ len ≤ bs.length - rest.length ∧
      (len = bs.length - rest.length ↔
        ∀ bs' rest', intDecode n bs' = some (v, rest') →
          bs.length - rest.length ≤ bs'.length - rest'.length) := by
  unfold decodeIntWithLength at h
  rw [Res.bind_eq_ok] at h
  obtain ⟨w, hw, h⟩ := h
  simp only [Res.pure_eq, Res.ok.injEq, Prod.mk.injEq] at h
  obtain ⟨rfl, rfl⟩ := h
  rw [decodeIntegerValue_spec n hn8] at hw
  obtain ⟨rest, h1, -, -⟩ := hw
  have hle := encode_length_le_used hn8 h1
  refine ⟨rest, h1, List.length_pos_iff.mpr (encodeIntegerValue_ne_nil n w), hle, ?_⟩
  constructor
  · intro heq bs' rest' h'
    rw [← heq]
    exact encode_length_le_used hn8 h'
  · intro hall
    obtain ⟨b, cs, hc, -, -⟩ := encodeIntegerValue_cons n w hn8
    have h0 := intDecode_encode n w hn8 0 (by simp) b cs [] hc
    have := hall _ _ h0
    rw [hc] at hle ⊢
    simp at this hle ⊢
    omega

/-- C09 is false of the code: the integer 127 written in three octets is reported as two octets
long, so the decoder resumes in the middle of it. -/
theorem C09_consumption_violated :
    ∃ bs v len rest, decodeIntWithLength 7 bs = .ok (v, len) ∧
      intDecode 7 bs = some (v, rest) ∧ len ≠ bs.length - rest.length := by
  exact ⟨[0x7f, 0x80, 0x00], 127, 2, [], by decide +kernel, by decide, by decide⟩

/-- Non-vacuity of `C09_consumption_partial`: 1337 in minimal form, with an octet after it, and 127 in a
form that is one octet longer than it need be. -/
example : decodeIntWithLength 5 [0xff, 0x9a, 0x0a, 1] = .ok (1337, 3) ∧
    intDecode 5 [0xff, 0x9a, 0x0a, 1] = some (1337, [1]) ∧
    decodeIntWithLength 7 [0x7f, 0x80, 0x00, 1] = .ok (127, 2) ∧
    intDecode 7 [0x7f, 0x80, 0x00, 1] = some (127, [1]) := by decide +kernel

end Mh2c
