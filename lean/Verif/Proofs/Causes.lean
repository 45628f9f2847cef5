/-
Lemmas for C120: where exceptions come from.
-/
import Verif.Proofs.Client
import Verif.Props.HeaderCodec
import Verif.Props.Huffman
import Verif.Spec.Causes

namespace Mh2c

open Rfc

theorem bind_eq_throw {α β : Type} {x : Res α} {f : α → Res β} {e : Exc}
    (h : (x >>= f) = .throw e) : x = .throw e ∨ ∃ a, x = .ok a ∧ f a = .throw e := by
  cases x with
  | ok a => exact Or.inr ⟨a, rfl, h⟩
  | throw e' => exact Or.inl (by injection h with h; rw [h])
  | ub k => cases h
  | diverge => cases h

theorem front_ne_throw (v : Bytes) (e : Exc) : front v ≠ .throw e := by
  cases v <;> simp [front]

theorem readAt_ne_throw (v : Bytes) (i : Nat) (e : Exc) : readAt v i ≠ .throw e := by
  unfold readAt; split <;> simp

theorem eraseFirst_ne_throw (n : Nat) (v : Bytes) (e : Exc) : eraseFirst n v ≠ .throw e := by
  unfold eraseFirst; split <;> simp

theorem copyRange_ne_throw (v : Bytes) (a n : Nat) (e : Exc) : copyRange v a n ≠ .throw e := by
  unfold copyRange; split <;> simp

theorem addressRange_ne_throw [Platform] (v : Bytes) (a n : Nat) (e : Exc) :
    addressRange v a n ≠ .throw e := by
  unfold addressRange
  split
  · split <;> simp
  · simp

theorem shlInt_ne_throw (a k : Nat) (e : Exc) : shlInt a k ≠ .throw e := by
  unfold shlInt; split <;> simp

theorem bytes2integral_ne_throw (size : Nat) (v : Bytes) (e : Exc) :
    bytes2integral size v ≠ .throw e := by
  unfold bytes2integral
  have : ∀ (left : Nat) (bs : Bytes) (acc : Nat), bytes2integralLoop size left bs acc ≠ .throw e := by
    intro left
    induction left with
    | zero => intro bs acc; simp [bytes2integralLoop]
    | succ k ih =>
        intro bs acc
        cases bs with
        | nil => simp [bytes2integralLoop]
        | cons b bs =>
            unfold bytes2integralLoop
            intro h
            rcases bind_eq_throw h with h1 | ⟨a, -, h2⟩
            · exact shlInt_ne_throw _ _ _ h1
            · exact ih _ _ h2
  exact this _ _ _

theorem decodeIntWithLength_ne_throw (n : Nat) (v : Bytes) (e : Exc) :
    decodeIntWithLength n v ≠ .throw e := by
  unfold decodeIntWithLength
  intro h
  rcases bind_eq_throw h with h1 | ⟨a, -, h2⟩
  · rcases decodeIntegerValue_ok_or_ub n v with ⟨x, g⟩ | ⟨k, g⟩ <;> rw [g] at h1 <;> cases h1
  · cases h2

theorem parseSettings_ne_throw (raw : Bytes) (acc : SfPayload) (e : Exc) :
    parseSettings raw acc ≠ .throw e := by
  match raw with
  | [] => unfold parseSettings; simp
  | b :: bs =>
      unfold parseSettings
      intro h
      rcases bind_eq_throw h with h1 | ⟨a, -, h2⟩
      · exact bytes2integral_ne_throw _ _ _ h1
      rcases bind_eq_throw h2 with h1 | ⟨a, -, h2⟩
      · exact bytes2integral_ne_throw _ _ _ h1
      exact parseSettings_ne_throw _ _ e h2
termination_by raw.length
decreasing_by simp; omega

/-! ### Growing the cause -/

theorem BadHuffman.grow {v : Bytes} (h : BadHuffman v) (a b : Bytes) : BadHuffman (a ++ v ++ b) := by
  obtain ⟨x, l, bad, y, rest, o, h1, h2, h3, h4, h5, h6⟩ := h
  refine ⟨a ++ x, l, bad, y ++ b, rest ++ b, o, ?_, h2, h3, h4, ?_, h6⟩
  · rw [h1]; simp only [List.append_assoc]
  · have := intDecode_append (more := b) h5
    simpa only [List.append_assoc] using this

theorem MissingIndex.grow {v : Bytes} {t : List Field} (h : MissingIndex v t) (a b : Bytes) :
    MissingIndex (a ++ v ++ b) t := by
  obtain ⟨x, rep, rest, o, n, i, h1, h2, h3, h4, h5⟩ := h
  refine ⟨a ++ x, rep ++ b, rest ++ b, o, n, i, ?_, ?_, h3, intDecode_append h4 b, h5⟩
  · rw [h1]; simp only [List.append_assoc]
  · cases rep with
    | nil => cases h2
    | cons c cs => exact h2

/-- Why decoding octets of a header block throws. -/
def Cause (v : Bytes) (t : List Field) (e : Exc) : Prop :=
  (e = .invalidArgument ∧ BadHuffman v) ∨ (e = .outOfRange ∧ MissingIndex v t)

theorem Cause.grow {v : Bytes} {t : List Field} {e : Exc} (h : Cause v t e) (a b : Bytes) :
    Cause (a ++ v ++ b) t e := by
  rcases h with ⟨h1, h2⟩ | ⟨h1, h2⟩
  · exact Or.inl ⟨h1, h2.grow a b⟩
  · exact Or.inr ⟨h1, h2.grow a b⟩

theorem Cause.of_drop {v : Bytes} {t : List Field} {e : Exc} {n : Nat} (h : Cause (v.drop n) t e) :
    Cause v t e := by
  have := h.grow (v.take n) []
  simpa using this

theorem Cause.of_take {v : Bytes} {t : List Field} {e : Exc} {n : Nat} (h : Cause (v.take n) t e) :
    Cause v t e := by
  have := h.grow [] (v.drop n)
  simpa using this

theorem decodeHeaderString_throw [Platform] {v : Bytes} {e : Exc}
    (h : decodeHeaderString v = .throw e) : e = .invalidArgument ∧ BadHuffman v := by
  unfold decodeHeaderString at h
  rcases bind_eq_throw h with h1 | ⟨⟨length, intLength⟩, h1, h2⟩
  · exact absurd h1 (decodeIntWithLength_ne_throw _ _ _)
  have hb := decodeIntWithLength_bounds (by omega) h1
  unfold decodeIntWithLength at h1
  obtain ⟨y, g1, g2⟩ := Res.bind_eq_ok.1 h1
  injection g2 with g2
  injection g2 with g3 g4
  subst g3 g4
  obtain ⟨rest, k1, k2, -⟩ := (decodeIntegerValue_spec 7 (by omega) v y).1 g1
  have k3 := encode_length_le_used (by omega) k1
  rcases bind_eq_throw h2 with h3 | ⟨first, h3, h4⟩
  · exact absurd h3 (front_ne_throw _ _)
  simp only at h4
  split at h4
  · rename_i hbit
    rcases bind_eq_throw h4 with h5 | ⟨data, h5, h6⟩
    · exact absurd h5 (copyRange_ne_throw _ _ _ _)
    rcases bind_eq_throw h6 with h7 | ⟨out, -, h8⟩
    · have he : e = .invalidArgument := by
        rcases C12_total_and_safe data with ⟨out, ho⟩ | ho
        · rw [ho] at h7; cases h7
        · rw [ho] at h7; exact (Res.throw.inj h7).symm
      refine ⟨he, ?_⟩
      unfold copyRange at h5
      split at h5
      swap
      · cases h5
      rename_i hlen
      injection h5 with h5
      have hdl : data.length = y := by
        rw [← h5, List.length_take, List.length_drop]; omega
      have hv : v.take (encodeIntegerValue 7 y).length ++ data ++
          v.drop ((encodeIntegerValue 7 y).length + y) = v := by
        rw [← h5, ← List.drop_drop, List.append_assoc, List.take_append_drop, List.take_append_drop]
      refine ⟨[], v.take (encodeIntegerValue 7 y).length, data,
        v.drop ((encodeIntegerValue 7 y).length + y), rest, first, ?_, ?_, ?_, ?_, ?_, ?_⟩
      · rw [List.nil_append, hv]
      · cases v with
        | nil => simp [front] at h3
        | cons c cs =>
            have hc : c = first := by simpa [front] using h3
            obtain ⟨j, hj⟩ : ∃ j, (encodeIntegerValue 7 y).length = j + 1 :=
              ⟨(encodeIntegerValue 7 y).length - 1, by omega⟩
            rw [hj, List.take_succ_cons, hc]; rfl
      · by_contra hlt
        apply hbit
        have : ∀ x : UInt8, ¬ 128 ≤ x.toNat → highBits 8 1 x.toNat = 0 := fun x =>
          of_decide_eq_true <| u8_all (p := fun x => ¬ 128 ≤ x.toNat → highBits 8 1 x.toNat = 0)
            (by decide +kernel) x
        exact this first hlt
      · rw [List.length_take]; omega
      · rw [hv, hdl]; exact k1
      · rintro ⟨s, hs⟩
        rw [decode_of_rfc hs] at h7
        cases h7
    · exact absurd h8 (bind_ne_throw (addressRange_ne_throw _ _ _) (fun _ _ => by simp) e)
  · exact absurd h4 (bind_ne_throw (addressRange_ne_throw _ _ _) (fun _ _ => by simp) e)

theorem decodeLiteral_throw [Platform] {v : Bytes} {p : HeaderPrefix} {ih : Header} {n : Nat}
    {e : Exc} (t : List Field) (h : decodeLiteral v p ih n = .throw e) : Cause v t e := by
  unfold decodeLiteral at h
  rcases bind_eq_throw h with h1 | ⟨data, h1, h2⟩
  · exact absurd h1 (eraseFirst_ne_throw _ _ _)
  have er : ∀ {n : Nat} {v w : Bytes}, eraseFirst n v = .ok w → w = v.drop n := by
    intro n v w hw
    unfold eraseFirst at hw
    split at hw
    · exact (Res.ok.inj hw).symm
    · cases hw
  obtain rfl := er h1
  apply Cause.of_drop (n := n)
  split at h2
  · rcases bind_eq_throw h2 with h3 | ⟨⟨name, nl⟩, -, h3⟩
    · exact Or.inl (decodeHeaderString_throw h3)
    rcases bind_eq_throw h3 with h4 | ⟨data', h4, h5⟩
    · exact absurd h4 (eraseFirst_ne_throw _ _ _)
    obtain rfl := er h4
    rcases bind_eq_throw h5 with h6 | ⟨⟨value, vl⟩, -, h6⟩
    · exact Cause.of_drop (Or.inl (decodeHeaderString_throw h6))
    rcases bind_eq_throw h6 with h7 | ⟨_, -, h7⟩
    · exact absurd h7 (eraseFirst_ne_throw _ _ _)
    · cases h7
  · rcases bind_eq_throw h2 with h3 | ⟨⟨value, vl⟩, -, h3⟩
    · exact Or.inl (decodeHeaderString_throw h3)
    rcases bind_eq_throw h3 with h4 | ⟨_, -, h4⟩
    · exact absurd h4 (eraseFirst_ne_throw _ _ _)
    · cases h4

theorem makeIndexedHeader_throw {i : Nat} {t : DynamicTable} {e : Exc} (h0 : 0 < i)
    (h : makeIndexedHeader i t = .throw e) : e = .outOfRange ∧ 61 + t.entries.length < i := by
  unfold makeIndexedHeader at h
  rw [staticTable_length] at h
  split at h
  · unfold DynamicTable.atPos at h
    split at h
    · cases h
    · rename_i hn
      rw [List.getElem?_eq_none_iff] at hn
      exact ⟨(Res.throw.inj h).symm, by omega⟩
  · exfalso
    have : ∀ i < 62, 0 < i → (staticTableEntries.lookup i).isSome := by decide +kernel
    have hs := this i (by omega) h0
    unfold staticTableAt at h
    split at h
    · cases h
    · rename_i hn; rw [hn] at hs; cases hs

theorem decodeHeader_throw [Platform] {v : Bytes} {t : DynamicTable} {e : Exc}
    (h : decodeHeader v t = .throw e) : Cause v t.entries e := by
  cases v with
  | nil => simp [decodeHeader, front] at h
  | cons b bs =>
      cases hb : indexBits b with
      | none =>
          exfalso
          unfold decodeHeader at h
          simp only [front, Res.ok_bind, checkPrefix_eq] at h
          have hp : prefixClass b.toNat = .sizeUpdate := by
            have : ∀ x : UInt8, indexBits x = none → prefixClass x.toNat = .sizeUpdate := fun x =>
              of_decide_eq_true <| u8_all
                (p := fun x => indexBits x = none → prefixClass x.toNat = .sizeUpdate)
                (by decide +kernel) x
            exact this b hb
          rw [if_pos hp] at h
          rcases bind_eq_throw h with h1 | ⟨_, -, h2⟩
          · exact decodeIntWithLength_ne_throw _ _ _ h1
          · cases h2
      | some n =>
          obtain ⟨p, -, -, hn, hn8, hd⟩ := decodeHeader_index (bs := bs) hb t
          rw [hd] at h
          rcases bind_eq_throw h with h1 | ⟨⟨index, il⟩, h1, h2⟩
          · exact absurd h1 (decodeIntWithLength_ne_throw _ _ _)
          simp only at h2
          have lit : ∀ ih : Header, (if p = .indexed then
              (return (HeaderEntry.ofHeader p ih, il) : Res (HeaderEntry × Nat))
              else decodeLiteral (b :: bs) p ih il) = .throw e → Cause (b :: bs) t.entries e := by
            intro ih h4
            split at h4
            · cases h4
            · exact decodeLiteral_throw _ h4
          split at h2
          · rename_i h0
            rcases bind_eq_throw h2 with h3 | ⟨ih, -, h4⟩
            · obtain ⟨rfl, hm⟩ := makeIndexedHeader_throw h0 h3
              unfold decodeIntWithLength at h1
              obtain ⟨y, g1, g2⟩ := Res.bind_eq_ok.1 h1
              injection g2 with g2
              injection g2 with g3 g4
              subst g3
              obtain ⟨rest, k1, -, -⟩ := (decodeIntegerValue_spec n hn8 _ y).1 g1
              exact Or.inr ⟨rfl, [], b :: bs, rest, b, n, y, rfl, rfl, hb, k1, hm⟩
            · exact lit ih h4
          · exact lit _ h2

theorem decodeHeaderBlock_throw [Platform] {v : Bytes} {t : DynamicTable} {e : Exc}
    (h : decodeHeaderBlock v t = .throw e) : Cause v t.entries e := by
  unfold decodeHeaderBlock at h
  split at h
  swap
  · cases h
  rename_i h0
  split at h
  · rename_i e' he
    injection h with h
    subst h
    exact decodeHeader_throw he
  · cases h
  · cases h
  · rename_i entry n he
    split at h
    · cases h
    · split at h
      · rcases bind_eq_throw h with h1 | ⟨_, -, h2⟩
        · exact (decodeHeaderBlock_throw h1).of_drop
        · cases h2
      · cases h
termination_by v.length
decreasing_by simp; omega

theorem extractPadding_rest {flags : UInt8} {raw pad rest : Bytes} {t : List Field} {e : Exc}
    (h : extractPadding flags raw = .ok (pad, rest)) (hc : Cause rest t e) : Cause raw t e := by
  unfold extractPadding at h
  split at h
  · obtain ⟨n, -, h1⟩ := Res.bind_eq_ok.1 h
    split at h1
    · cases h1
    · obtain ⟨r, h2, h3⟩ := Res.bind_eq_ok.1 h1
      injection h3 with h3
      injection h3 with h4 h5
      subst h5
      unfold eraseFirst at h2
      split at h2
      · obtain rfl := (Res.ok.inj h2).symm
        exact hc.of_drop.of_take
      · cases h2
  · injection h with h
    injection h with h1 h2
    subst h2
    exact hc

theorem extractPadding_ne_throw (flags : UInt8) (raw : Bytes) (e : Exc) :
    extractPadding flags raw ≠ .throw e := by
  unfold extractPadding
  split
  · intro h
    rcases bind_eq_throw h with h1 | ⟨_, -, h2⟩
    · exact front_ne_throw _ _ h1
    · split at h2
      · cases h2
      · rcases bind_eq_throw h2 with h3 | ⟨_, -, h4⟩
        · exact eraseFirst_ne_throw _ _ _ h3
        · cases h4
  · simp

theorem pushPromise_throw [Platform] {fh : FrameHeader} {raw : Bytes} {t : DynamicTable} {e : Exc}
    (h : PushPromiseFrame.ofRaw fh raw t = .throw e) : Cause raw t.entries e := by
  unfold PushPromiseFrame.ofRaw at h
  rcases bind_eq_throw h with h1 | ⟨⟨pad, rest⟩, h1, h2⟩
  · exact absurd h1 (extractPadding_ne_throw _ _ _)
  apply extractPadding_rest h1
  rcases bind_eq_throw h2 with h3 | ⟨_, -, h4⟩
  · exact absurd h3 (readAt_ne_throw _ _ _)
  rcases bind_eq_throw h4 with h5 | ⟨_, -, h6⟩
  · exact absurd h5 (bytes2integral_ne_throw _ _ _)
  rcases bind_eq_throw h6 with h7 | ⟨r, h7, h8⟩
  · exact absurd h7 (eraseFirst_ne_throw _ _ _)
  unfold eraseFirst at h7
  split at h7
  swap
  · cases h7
  obtain rfl := (Res.ok.inj h7).symm
  apply Cause.of_drop (n := 4)
  rcases bind_eq_throw h8 with h9 | ⟨_, -, h9⟩
  · exact decodeHeaderBlock_throw h9
  · cases h9

theorem continuation_throw [Platform] {fh : FrameHeader} {raw : Bytes} {t : DynamicTable} {e : Exc}
    (h : ContinuationFrame.ofRaw fh raw t = .throw e) : Cause raw t.entries e := by
  unfold ContinuationFrame.ofRaw at h
  rcases bind_eq_throw h with h1 | ⟨_, -, h2⟩
  · exact decodeHeaderBlock_throw h1
  · cases h2

end Mh2c
