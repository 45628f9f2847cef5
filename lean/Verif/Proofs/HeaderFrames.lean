/-
Lemmas about padding, priority fields and header-carrying frames.
-/
import Verif.Proofs.Frames

namespace Mh2c

open Rfc

theorem u8_all {p : UInt8 → Bool} (h : ∀ n < 256, p (UInt8.ofNat n) = true) (b : UInt8) :
    p b = true := by
  have := h b.toNat b.toNat_lt
  rwa [UInt8.ofNat_toNat] at this

theorem isFlagSet_padded (flags : UInt8) : isFlagSet flags flagPadded = flags.toNat.testBit 3 := by
  have := u8_all (p := fun b => isFlagSet b flagPadded == b.toNat.testBit 3)
    (by decide +kernel) flags
  exact eq_of_beq this

theorem isFlagSet_priority (flags : UInt8) :
    isFlagSet flags flagPriority = flags.toNat.testBit 5 := by
  have := u8_all (p := fun b => isFlagSet b flagPriority == b.toNat.testBit 5)
    (by decide +kernel) flags
  exact eq_of_beq this

theorem padded_ite {α : Type} (flags : UInt8) (a b : α) :
    (if isFlagSet flags flagPadded = true then a else b) = if hasPadded flags then a else b := by
  unfold hasPadded; rw [isFlagSet_padded]

theorem priority_ite {α : Type} (flags : UInt8) (a b : α) :
    (if isFlagSet flags flagPriority = true then a else b) = if hasPriority flags then a else b := by
  unfold hasPriority; rw [isFlagSet_priority]

/-! ### Padding -/

theorem extractPadding_withPadding (flags : UInt8) (content padding : Bytes)
    (hl : padding.length ≤ 255) (hn : ¬ hasPadded flags → padding = []) :
    extractPadding flags (withPadding flags content padding) = .ok (padding, content) := by
  unfold extractPadding withPadding
  rw [padded_ite]
  by_cases h : hasPadded flags
  · rw [if_pos h, if_pos h]
    have hp : (UInt8.ofNat padding.length).toNat = padding.length := by
      simp; omega
    unfold padded front eraseFirst
    simp only [Res.ok_bind, Res.pure_eq, hp, List.length_cons, List.length_append]
    rw [if_neg (by omega)]
    have e1 : content.length + padding.length + 1 - padding.length = content.length + 1 := by omega
    rw [e1, List.drop_succ_cons, List.take_succ_cons, List.drop_left, List.take_left]
    simp
  · rw [if_neg h, if_neg h, hn h]

/-- Which payloads are refused: none by an exception. -/
theorem extractPadding_bad {flags : UInt8} {raw : Bytes} (h : hasPadded flags)
    (hb : raw = [] ∨ ∃ p rest, raw = p :: rest ∧ raw.length ≤ p.toNat) :
    ∃ k, extractPadding flags raw = .ub k := by
  unfold extractPadding
  rw [padded_ite, if_pos h]
  rcases hb with rfl | ⟨p, rest, rfl, hl⟩
  · exact ⟨_, rfl⟩
  · simp only [front, Res.ok_bind]
    by_cases hg : p.toNat > (p :: rest).length
    · rw [if_pos hg]; exact ⟨_, rfl⟩
    · rw [if_neg hg]
      have : (p :: rest).length - p.toNat = 0 := by omega
      rw [this]
      exact ⟨_, rfl⟩

theorem extractPadding_good {flags : UInt8} {p : UInt8} {rest : Bytes} (h : hasPadded flags)
    (hl : p.toNat ≤ rest.length) :
    extractPadding flags (p :: rest) =
      .ok (rest.drop (rest.length - p.toNat), rest.take (rest.length - p.toNat)) := by
  unfold extractPadding
  rw [padded_ite, if_pos h]
  simp only [front, Res.ok_bind, List.length_cons]
  rw [if_neg (by omega), (by omega : rest.length + 1 - p.toNat = rest.length - p.toNat + 1),
    List.drop_succ_cons, List.take_succ_cons]
  simp [eraseFirst]

theorem extractPadding_unpadded {flags : UInt8} (h : ¬ hasPadded flags) (raw : Bytes) :
    extractPadding flags raw = .ok ([], raw) := by
  unfold extractPadding
  rw [padded_ite, if_neg h]

/-! ### Priority fields -/

theorem encodePriority_eq {p : PriorityOption} (he : p.exclusive.toNat ≤ 1)
    (hd : p.streamDependency.toNat < 2 ^ 31) :
    encodePriority p =
      .ok (priorityOctets p.exclusive.toNat p.streamDependency.toNat p.weight) := by
  unfold encodePriority shlInt
  rw [if_pos (by omega), Res.ok_bind, integral2bytes_eq, lowBits_eq, Nat.mod_eq_of_lt hd,
    ← Nat.shiftLeft_eq, or_high_bit _ _ hd]
  rfl

/-- The priority fields are the first five octets. -/
theorem extractPriority_eq {flags : UInt8} (h : hasPriority flags) {raw : Bytes}
    (hl : 5 ≤ raw.length) :
    extractPriority flags raw = .ok (⟨UInt8.ofNat (beValue (raw.take 4) / 2 ^ 31),
      UInt32.ofNat (beValue (raw.take 4) % 2 ^ 31), raw[4]⟩, raw.drop 5) := by
  unfold extractPriority
  rw [priority_ite, if_pos h]
  have c1 : copyRange raw 0 4 = .ok (raw.take 4) := by
    unfold copyRange
    rw [if_pos (by omega), List.drop_zero]
  have h4 : (raw.take 4).length = 4 := by rw [List.length_take]; omega
  have c2 : readAt (raw.take 4) 0 = .ok raw[0] := by
    rw [readAt_ok (by omega), List.getElem_take]
  have c3 : bytes2integral 4 (raw.take 4) = .ok (beValue (raw.take 4)) := by
    rw [bytes2integral_ok (by omega) (by omega), List.take_of_length_le (le_of_eq h4)]
  have c4 : eraseFirst 4 raw = .ok (raw.drop 4) := by
    unfold eraseFirst; rw [if_pos (by omega)]
  have c5 : front (raw.drop 4) = .ok raw[4] := by
    rw [List.drop_eq_getElem_cons (by omega)]; rfl
  have c6 : eraseFirst 1 (raw.drop 4) = .ok (raw.drop 5) := by
    unfold eraseFirst
    rw [if_pos (by simp; omega), List.drop_drop]
  rw [c1, Res.ok_bind, c2, Res.ok_bind, c3, Res.ok_bind, c4, Res.ok_bind, c5, Res.ok_bind, c6,
    Res.ok_bind, first_bit (by omega), lowBits_eq]
  rfl

theorem extractPriority_none {flags : UInt8} (h : ¬ hasPriority flags) (raw : Bytes) :
    extractPriority flags raw = .ok (.zero, raw) := by
  unfold extractPriority
  rw [priority_ite, if_neg h]

theorem extractPriority_short {flags : UInt8} (h : hasPriority flags) {raw : Bytes}
    (hl : raw.length < 5) : ∃ k, extractPriority flags raw = .ub k := by
  unfold extractPriority
  rw [priority_ite, if_pos h]
  by_cases h4 : raw.length < 4
  · unfold copyRange
    rw [if_neg (by omega)]
    exact ⟨_, rfl⟩
  · match raw, (by omega : raw.length = 4) with
    | [a, b, c, d], _ =>
        have c3 : bytes2integral 4 [a, b, c, d] = .ok (beValue [a, b, c, d]) :=
          bytes2integral_ok (by omega) (by simp)
        have c1 : copyRange [a, b, c, d] 0 4 = .ok [a, b, c, d] := rfl
        have c2 : readAt [a, b, c, d] 0 = .ok a := rfl
        have c4 : eraseFirst 4 [a, b, c, d] = .ok [] := rfl
        rw [c1, Res.ok_bind, c2, Res.ok_bind, c3, Res.ok_bind, c4]
        exact ⟨_, rfl⟩

theorem extractPriority_withPriority (flags : UInt8) (p : PriorityOption) (content : Bytes)
    (he : p.exclusive.toNat ≤ 1) (hd : p.streamDependency.toNat < 2 ^ 31)
    (hn : ¬ hasPriority flags → p = .zero) :
    extractPriority flags (withPriority flags p content) = .ok (p, content) := by
  unfold withPriority
  by_cases h : hasPriority flags
  · rw [if_pos h]
    obtain ⟨e, d, w⟩ := p
    simp only at he hd ⊢
    have hl := bitAnd31_length e.toNat d.toNat
    have hr : priorityOctets e.toNat d.toNat w ++ content =
        bitAnd31 e.toNat d.toNat ++ (w :: content) := by simp [priorityOctets]
    have q1 : (e.toNat * 2 ^ 31 + d.toNat) / 2 ^ 31 = e.toNat := by omega
    have q2 : (e.toNat * 2 ^ 31 + d.toNat) % 2 ^ 31 = d.toNat := by omega
    have q3 : (bitAnd31 e.toNat d.toNat ++ w :: content)[4]'(by simp [hl]) = w := by
      rw [List.getElem_append_right (by omega)]
      simp [hl]
    have q4 : (bitAnd31 e.toNat d.toNat ++ w :: content).drop 5 = content := by
      rw [List.drop_append, List.drop_of_length_le (by omega), hl]; rfl
    rw [hr, extractPriority_eq h (by simp [hl]; omega), List.take_left' hl,
      beValue_bitAnd31 (by omega) hd, q1, q2, q3, q4, UInt8.ofNat_toNat, UInt32.ofNat_toNat]
  · rw [if_neg h, extractPriority_none h, hn h]

/-! ### Whole payloads -/

theorem headers_encoded {flags : UInt8} {block : HeaderBlock} {mode : EncodeMode}
    {table : DynamicTable} {padding : Bytes} {p : PriorityOption} {enc : Bytes}
    (he : hasPriority flags → p.exclusive.toNat ≤ 1)
    (hd : hasPriority flags → p.streamDependency.toNat < 2 ^ 31)
    (hb : encodeHeaderBlock block mode table = .ok enc) :
    HeadersFrame.constructEncodedPayload flags block mode table padding p =
      .ok (withPadding flags (withPriority flags p enc) padding) := by
  unfold HeadersFrame.constructEncodedPayload withPadding withPriority
  simp only [padded_ite, priority_ite, hb, Res.ok_bind, Res.pure_eq]
  by_cases h2 : hasPriority flags
  · rw [if_pos h2, if_pos h2, encodePriority_eq (he h2) (hd h2)]
    by_cases h1 : hasPadded flags
    · simp [h1, padded]
    · simp [h1]
  · rw [if_neg h2, if_neg h2]
    by_cases h1 : hasPadded flags
    · simp [h1, padded]
    · simp [h1]

theorem headers_decoded [Platform] {fh : FrameHeader} {p : PriorityOption} {padding enc : Bytes}
    {table : DynamicTable} {decoded : HeaderBlock} (hl : padding.length ≤ 255)
    (hn : ¬ hasPadded fh.flags → padding = []) (he : p.exclusive.toNat ≤ 1)
    (hd : p.streamDependency.toNat < 2 ^ 31) (hz : ¬ hasPriority fh.flags → p = .zero)
    (hb : decodeHeaderBlock enc table = .ok decoded) :
    HeadersFrame.ofRaw fh (withPadding fh.flags (withPriority fh.flags p enc) padding) table =
      .ok ⟨withPadding fh.flags (withPriority fh.flags p enc) padding, fh, padding, p, decoded⟩ := by
  unfold HeadersFrame.ofRaw
  rw [extractPadding_withPadding _ _ _ hl hn, Res.ok_bind]
  simp only
  rw [extractPriority_withPriority _ _ _ he hd hz, Res.ok_bind]
  simp only
  rw [hb, Res.ok_bind]
  rfl

theorem pushPromise_encoded [Platform] {flags : UInt8} {p : PushPromisePayload}
    {mode : EncodeMode} {table : DynamicTable} {enc : Bytes}
    (hb : encodeHeaderBlock p.headerBlock mode table = .ok enc) :
    PushPromiseFrame.constructEncodedPayload flags p mode table =
      .ok (withPadding flags (bitAnd31 (p.reserved.toNat % 2) (p.promisedStreamId.toNat % 2 ^ 31) ++
        enc) p.padding) := by
  unfold PushPromiseFrame.constructEncodedPayload withPadding
  have : p.promisedStreamId.toNat % 2 ^ 31 < 2 ^ 31 := Nat.mod_lt _ (by norm_num)
  simp only [padded_ite, hb, Res.ok_bind, Res.pure_eq, netBytes_eq, lowBits_eq]
  rw [or_high_bit _ _ this]
  by_cases h1 : hasPadded flags
  · simp [h1, padded, bitAnd31]
  · simp [h1, bitAnd31]

theorem pushPromise_decoded [Platform] {fh : FrameHeader} {reserved : UInt8} {promised : UInt32}
    {padding enc : Bytes} {table : DynamicTable} {decoded : HeaderBlock}
    (hl : padding.length ≤ 255) (hn : ¬ hasPadded fh.flags → padding = [])
    (hr : reserved.toNat ≤ 1) (hp : promised.toNat < 2 ^ 31)
    (hb : decodeHeaderBlock enc table = .ok decoded) :
    PushPromiseFrame.ofRaw fh
      (withPadding fh.flags (bitAnd31 reserved.toNat promised.toNat ++ enc) padding) table =
      .ok ⟨withPadding fh.flags (bitAnd31 reserved.toNat promised.toNat ++ enc) padding, fh,
        ⟨reserved, promised, decoded, padding⟩⟩ := by
  have h4 := bitAnd31_length reserved.toNat promised.toNat
  unfold PushPromiseFrame.ofRaw
  rw [extractPadding_withPadding _ _ _ hl hn, Res.ok_bind]
  simp only
  rw [readAt_ok (by simp [h4]), bytes2integral_ok (by omega) (by simp [h4])]
  simp only [Res.ok_bind]
  rw [first_bit (by simp [h4]), List.take_left' h4, beValue_bitAnd31 (by omega) hp]
  have c2 : eraseFirst 4 (bitAnd31 reserved.toNat promised.toNat ++ enc) = .ok enc := by
    unfold eraseFirst
    rw [if_pos (by simp [h4]), List.drop_left' h4]
  rw [c2, Res.ok_bind, hb, Res.ok_bind, lowBits_eq,
    (by omega : (reserved.toNat * 2 ^ 31 + promised.toNat) / 2 ^ 31 = reserved.toNat),
    (by omega : (reserved.toNat * 2 ^ 31 + promised.toNat) % 2 ^ 31 = promised.toNat)]
  simp

/-! ### Settled blocks -/

theorem settled_eq {table : DynamicTable} {block decoded : HeaderBlock}
    (h : SameHeaders table block decoded) (hs : Settled table block) : decoded = block := by
  obtain ⟨h1, h2⟩ := h
  induction h2 with
  | nil => rfl
  | @cons e d es ds hd _ ih =>
      simp only [List.map_cons, List.cons.injEq] at h1
      rw [ih (fun e he => hs e (List.mem_cons_of_mem _ he)) h1.2]
      congr 1
      obtain ⟨p, x⟩ := e
      obtain ⟨p', x'⟩ := d
      simp only at h1 hd
      obtain ⟨rfl, -⟩ := h1
      rcases hd with rfl | ⟨rfl, h, rfl, hh⟩
      · rfl
      · have := hs ⟨p, .header h⟩ List.mem_cons_self h rfl hh
        simp only at this
        rw [this]

end Mh2c
