/-
Lemmas about frame headers in front of payloads, one-bit fields and the fixed-size frames.
-/
import Verif.Spec.FrameApi
import Verif.Proofs.FrameHeader

namespace Mh2c

open Rfc

theorem header_serialize [Platform] (n : Nat) (type flags : UInt8) (sid : UInt32)
    (hn : n < 2 ^ 24) :
    (⟨castToFhLength n, type, flags, 0, sid⟩ : FrameHeader).serialize =
      be 3 n ++ [type, flags] ++ be 4 sid.toNat := by
  rw [FrameHeader.serialize_eq, castToFhLength, UInt32.toNat_ofNat', Nat.mod_eq_of_lt (by omega)]
  simp [lowBits]

theorem header_frame [Platform] (payload : Bytes) (type flags : UInt8) (sid : UInt32)
    (hn : payload.length < 2 ^ 24) :
    (⟨castToFhLength payload.length, type, flags, 0, sid⟩ : FrameHeader).serialize ++ payload =
      frameOctets type flags sid.toNat payload := by
  rw [header_serialize _ _ _ _ hn]; rfl

theorem reparse_frame [Platform] (payload : Bytes) (type flags : UInt8) (sid : UInt32)
    (hn : payload.length < 2 ^ 24) (hs : sid.toNat < 2 ^ 31) (table : DynamicTable) :
    reparse (frameOctets type flags sid.toNat payload) table =
      buildFrame ⟨castToFhLength payload.length, type, flags, 0, sid⟩ payload table := by
  rw [← header_frame _ _ _ _ hn]
  unfold reparse
  have h9 := FrameHeader.serialize_length (⟨castToFhLength payload.length, type, flags, 0, sid⟩)
  rw [List.take_left' h9, List.drop_left' h9]
  have := buildFrameHeader_serialize (⟨castToFhLength payload.length, type, flags, 0, sid⟩) []
  rw [List.append_nil] at this
  rw [this, Res.ok_bind]
  congr 1
  simp only [FrameHeader.mk.injEq, true_and]
  refine ⟨?_, ?_, ?_⟩
  · rw [castToFhLength, UInt32.toNat_ofNat', Nat.mod_eq_of_lt (a := payload.length) (b := 2 ^ 32) (by omega),
      Nat.mod_eq_of_lt hn]
  · rw [Nat.div_eq_of_lt hs]; rfl
  · rw [Nat.mod_eq_of_lt hs]; simp

section Build

variable [Platform] (fh : FrameHeader) (raw : Bytes) (table : DynamicTable)

theorem buildFrame_data (h : fh.type = 0) : buildFrame fh raw table = buildDataFrame fh raw := by
  unfold buildFrame; rw [h]; rfl

theorem buildFrame_headers (h : fh.type = 1) :
    buildFrame fh raw table = buildHeadersFrame fh raw table := by
  unfold buildFrame; rw [h]; rfl

theorem buildFrame_priority (h : fh.type = 2) :
    buildFrame fh raw table = (do return .priority (← PriorityFrame.ofRaw fh raw)) := by
  unfold buildFrame; rw [h]; rfl

theorem buildFrame_rstStream (h : fh.type = 3) :
    buildFrame fh raw table = (do return .rstStream (← RstStreamFrame.ofRaw fh raw)) := by
  unfold buildFrame; rw [h]; rfl

theorem buildFrame_settings (h : fh.type = 4) :
    buildFrame fh raw table = buildSettingsFrame fh raw := by
  unfold buildFrame; rw [h]; rfl

theorem buildFrame_pushPromise (h : fh.type = 5) :
    buildFrame fh raw table = (do return .pushPromise (← PushPromiseFrame.ofRaw fh raw table)) := by
  unfold buildFrame; rw [h]; rfl

theorem buildFrame_ping (h : fh.type = 6) :
    buildFrame fh raw table = (do return .ping (← PingFrame.ofRaw fh raw)) := by
  unfold buildFrame; rw [h]; rfl

theorem buildFrame_goaway (h : fh.type = 7) :
    buildFrame fh raw table = (do return .goaway (← GoawayFrame.ofRaw fh raw)) := by
  unfold buildFrame; rw [h]; rfl

theorem buildFrame_windowUpdate (h : fh.type = 8) :
    buildFrame fh raw table = (do return .windowUpdate (← WindowUpdateFrame.ofRaw fh raw)) := by
  unfold buildFrame; rw [h]; rfl

theorem buildFrame_continuation (h : fh.type = 9) :
    buildFrame fh raw table =
      (do return .continuation (← ContinuationFrame.ofRaw fh raw table)) := by
  unfold buildFrame; rw [h]; rfl

theorem buildFrame_unknown (h : 9 < fh.type.toNat) :
    buildFrame fh raw table = .throw .outOfRange := by
  unfold buildFrame
  have : frameTypeOf fh.type = none := by
    unfold frameTypeOf
    rw [List.find?_eq_none]
    intro f hf
    simp only [beq_iff_eq]
    intro he
    rw [← he] at h
    revert h
    cases f <;> decide
  rw [this]

end Build

/-! ### One-bit fields -/

theorem bit31_lt {a b : Nat} (ha : a < 2) (hb : b < 2 ^ 31) : a * 2 ^ 31 + b < 2 ^ 32 := by omega

theorem bitAnd31_length (a b : Nat) : (bitAnd31 a b).length = 4 := by simp [bitAnd31]

theorem beValue_bitAnd31 {a b : Nat} (ha : a < 2) (hb : b < 2 ^ 31) :
    beValue (bitAnd31 a b) = a * 2 ^ 31 + b := by
  rw [bitAnd31, beValue_be, Nat.mod_eq_of_lt (by norm_num; omega)]

/-- The first bit of four octets. -/
theorem first_bit {raw : Bytes} (h : 4 ≤ raw.length) :
    highBits 8 1 (raw[0]'(by omega)).toNat = beValue (raw.take 4) / 2 ^ 31 := by
  match raw, h with
  | a :: b :: c :: d :: _, _ =>
      rw [highBits_eq]
      simp only [List.getElem_cons_zero, List.take_succ_cons, List.take_zero, beValue_cons,
        List.length_cons, List.length_nil, beValue_nil]
      have := b.toNat_lt
      have := c.toNat_lt
      have := d.toNat_lt
      norm_num
      omega

theorem readAt_ok {v : Bytes} {i : Nat} (h : i < v.length) : readAt v i = .ok v[i] := by
  unfold readAt; rw [List.getElem?_eq_getElem h]

theorem take_beValue_lt {raw : Bytes} (n : Nat) : beValue (raw.take n) < 256 ^ n := by
  refine lt_of_lt_of_le (beValue_lt _) (Nat.pow_le_pow_right (by norm_num) ?_)
  simp

/-! ### Fixed-size frames -/

theorem priority_ofRaw (fh : FrameHeader) {raw : Bytes} (h : 5 ≤ raw.length) :
    PriorityFrame.ofRaw fh raw = .ok { header := fh, payload :=
      ⟨UInt8.ofNat (beValue (raw.take 4) / 2 ^ 31), UInt32.ofNat (beValue (raw.take 4) % 2 ^ 31),
        raw[4]⟩ } := by
  have hv : beValue (raw.take 4) < 2 ^ 32 := take_beValue_lt 4
  unfold PriorityFrame.ofRaw PriorityFrame.constructPayload
  rw [if_neg (by omega), readAt_ok (by omega), readAt_ok (by omega),
    bytes2integral_ok (by omega) (by omega)]
  simp only [Res.ok_bind, Res.pure_eq]
  rw [first_bit (by omega), lowBits_eq]
  unfold validatePriority
  simp only [UInt8.toNat_ofNat', UInt32.toNat_ofNat']
  rw [if_neg (by omega), if_neg (by omega)]
  rfl

theorem rstStream_ofRaw (fh : FrameHeader) {raw : Bytes} (h : 4 ≤ raw.length) :
    RstStreamFrame.ofRaw fh raw = .ok ⟨fh, UInt32.ofNat (beValue (raw.take 4))⟩ := by
  unfold RstStreamFrame.ofRaw
  rw [if_neg (by omega), bytes2integral_ok (by omega) (by omega)]
  rfl

theorem goaway_ofRaw (fh : FrameHeader) {raw : Bytes} (h : 8 ≤ raw.length) :
    GoawayFrame.ofRaw fh raw = .ok ⟨fh, UInt8.ofNat (beValue (raw.take 4) / 2 ^ 31),
      UInt32.ofNat (beValue (raw.take 4) % 2 ^ 31),
      UInt32.ofNat (beValue ((raw.drop 4).take 4)), raw.drop 8⟩ := by
  unfold GoawayFrame.ofRaw
  rw [if_neg (by omega), bytes2integral_ok (by omega) (by omega),
    bytes2integral_ok (by omega) (by simp; omega)]
  simp only [Res.ok_bind, Res.pure_eq, highBits_eq, lowBits_eq]
  by_cases h8 : raw.length > 8
  · rw [if_pos h8]
  · rw [if_neg h8, List.drop_of_length_le (i := 8) (by omega)]

theorem windowUpdate_ofRaw (fh : FrameHeader) {raw : Bytes} (h : raw.length = 4) :
    WindowUpdateFrame.ofRaw fh raw = .ok ⟨fh, UInt8.ofNat (beValue raw / 2 ^ 31),
      UInt32.ofNat (beValue raw % 2 ^ 31)⟩ := by
  have ht : raw.take 4 = raw := List.take_of_length_le (by omega)
  have hv : beValue raw < 2 ^ 32 := by rw [← ht]; exact take_beValue_lt 4
  unfold WindowUpdateFrame.ofRaw constructReserved constructWindowSize
  rw [if_neg (by omega), if_neg (by omega), readAt_ok (by omega),
    bytes2integral_ok (by omega) (by omega)]
  simp only [Res.ok_bind, Res.pure_eq]
  rw [first_bit (by omega), lowBits_eq, ht]
  unfold validateWindowSize
  simp only [UInt32.toNat_ofNat']
  rw [if_neg (by omega)]
  rfl

end Mh2c
