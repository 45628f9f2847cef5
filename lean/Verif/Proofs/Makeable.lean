import Verif.Proofs.FrameHeader
import Verif.Proofs.Frames
import Verif.Spec.Makeable

/-! Lemmas for C119: taking the octets of a frame apart and putting them together. -/

namespace Mh2c
open Rfc

theorem octets_eta5 (l : Bytes) (h : l.length = 5) : [l[4]] = l.drop 4 := by
  match l, h with
  | [_, _, _, _, _], _ => rfl

/-- At least nine octets are a length, type, flags, stream field and payload. -/
theorem wire_split (octets : Bytes) (h : 9 ≤ octets.length) :
    octets = be 3 (announced octets) ++ [octets[3], octets[4]] ++ be 4 (streamField octets) ++
      octets.drop 9 := by
  match octets, h with
  | a :: b :: c :: t :: f :: w :: x :: y :: z :: rest, _ =>
      have h3 := be_beValue [a, b, c]
      have h4 := be_beValue [w, x, y, z]
      have e3 : announced (a :: b :: c :: t :: f :: w :: x :: y :: z :: rest) = beValue [a, b, c] := rfl
      have e4 : streamField (a :: b :: c :: t :: f :: w :: x :: y :: z :: rest) =
          beValue [w, x, y, z] := rfl
      rw [e3, e4]
      have l3 : [a, b, c].length = 3 := rfl
      have l4 : [w, x, y, z].length = 4 := rfl
      rw [l3] at h3
      rw [l4] at h4
      rw [h3, h4]
      rfl

/-- The fields of a length, type, flags, stream field and payload put together. -/
theorem wire_fields (length sid : Nat) (type flags : UInt8) (payload : Bytes) :
    (be 3 length ++ [type, flags] ++ be 4 sid ++ payload).length = 9 + payload.length ∧
    announced (be 3 length ++ [type, flags] ++ be 4 sid ++ payload) = length % 2 ^ 24 ∧
    (be 3 length ++ [type, flags] ++ be 4 sid ++ payload)[3]? = some type ∧
    (be 3 length ++ [type, flags] ++ be 4 sid ++ payload)[4]? = some flags ∧
    streamField (be 3 length ++ [type, flags] ++ be 4 sid ++ payload) = sid % 2 ^ 32 ∧
    (be 3 length ++ [type, flags] ++ be 4 sid ++ payload).drop 9 = payload := by
  have h3 := beValue_be 3 length
  have h4 := beValue_be 4 sid
  refine ⟨by simp; omega, ?_, rfl, rfl, ?_, rfl⟩
  · exact h3
  · exact h4

theorem serialize_plain [Platform] (l : UInt32) (t f : UInt8) (s : UInt32) :
    FrameHeader.serialize ⟨l, t, f, 0, s⟩ = be 3 l.toNat ++ [t, f] ++ be 4 s.toNat := by
  rw [FrameHeader.serialize_eq]
  have : (lowBits 1 (0 : UInt8).toNat <<< 31) ||| s.toNat = s.toNat := by
    have : lowBits 1 (0 : UInt8).toNat <<< 31 = 0 := by decide
    rw [this, Nat.zero_or]
  simp only [this]

theorem streamField_lt (octets : Bytes) : streamField octets < 2 ^ 32 :=
  take_beValue_lt 4

theorem announced_lt (octets : Bytes) : announced octets < 2 ^ 24 :=
  take_beValue_lt 3

/-- What a frame class writes whose header has a clear reserved field: `payload` is what follows the
header. -/
theorem made_iff [Platform] (octets : Bytes) (l : UInt32) (t f : UInt8) (s : UInt32)
    (payload : Bytes) :
    FrameHeader.serialize ⟨l, t, f, 0, s⟩ ++ payload = octets ↔
      9 ≤ octets.length ∧ announced octets = l.toNat % 2 ^ 24 ∧ octets[3]? = some t ∧
      octets[4]? = some f ∧ streamField octets = s.toNat ∧ octets.drop 9 = payload := by
  rw [serialize_plain]
  constructor
  · rintro rfl
    obtain ⟨h1, h2, h3, h4, h5, h6⟩ := wire_fields l.toNat s.toNat t f payload
    refine ⟨by omega, h2, h3, h4, ?_, h6⟩
    rw [h5, Nat.mod_eq_of_lt s.toNat_lt]
  · rintro ⟨h1, h2, h3, h4, h5, rfl⟩
    have hs := wire_split octets h1
    rw [List.getElem?_eq_getElem (by omega)] at h3 h4
    rw [Option.some.inj h3, Option.some.inj h4, h5, h2] at hs
    conv_rhs => rw [hs]
    congr 3
    have e : ∀ n : Nat, be 3 n = be 3 (n % 2 ^ 24) := by
      intro n
      have := be_beValue (be 3 n)
      rw [be_length, beValue_be] at this
      exact this.symm
    exact e _

end Mh2c
