/-
Which texts exceptions have.
-/
import Verif.Proofs.What
import Verif.Proofs.Text
import Verif.Model.Stdout
import Verif.Spec.What

namespace Mh2c

open Rfc Told

theorem shrU32_ne_throw (a k : Nat) (e : Exc) : shrU32 a k ≠ .throw e := by
  unfold shrU32; split <;> simp

theorem shlU32_ne_throw (a k : Nat) (e : Exc) : shlU32 a k ≠ .throw e := by
  unfold shlU32; split <;> simp

namespace Huffman

theorem constructIntegerLoop_throw (left : Nat) (bs : Bytes) (value : Nat) (e : Exc)
    (h : constructIntegerLoop left bs value = .throw e) : e = .outOfRange := by
  induction left generalizing bs value with
  | zero => cases h
  | succ n ih =>
      cases bs with
      | nil => exact (Res.throw.inj h).symm
      | cons b bs =>
          unfold constructIntegerLoop at h
          rcases Mh2c.bind_eq_throw h with h1 | ⟨a, -, h2⟩
          · exact absurd h1 (shlInt_ne_throw _ _ _)
          · exact ih _ _ h2

/-- The text about `left` octets where `needed` are needed. -/
def shortText (left needed : Nat) : What :=
  .said (ascii "invalid argument: encoded_data.size()=" ++ decimal left ++
    ascii ", required_byte=" ++ decimal needed)

theorem candidateTold_short {temp : Bytes} {a m n : Nat} (h : stLen temp m < n) :
    candidateTold temp (a, m) n =
      .throw .invalidArgument (shortText temp.length ((n - m + 7) / 8)) := by
  unfold stLen at h
  unfold candidateTold
  simp only
  rw [if_pos (by omega)]
  have hr : (if (n - m) % 8 = 0 then (n - m) / 8 else (n - m) / 8 + 1) = (n - m + 7) / 8 := by
    split <;> omega
  rw [hr]
  have : constructIntegerTold temp ((n - m + 7) / 8) =
      .throw .invalidArgument (shortText temp.length ((n - m + 7) / 8)) := by
    unfold constructIntegerTold
    rw [if_pos (by omega), toString_eq, toString_eq]
    rfl
  rw [this]
  rfl

theorem searchTold_short {temp : Bytes} {a m s n v : Nat} (hm : m ≤ 7) (ha : a < 2 ^ m)
    (ho : Owner temp a m s n v) (hn : stLen temp m < n) (ht : temp ≠ [])
    (tbl : List (Nat × List (Nat × Nat)))
    (hsub : ∀ p ∈ tbl, p ∈ decodeTable) (hsort : (tbl.map Prod.fst).Pairwise (· < ·))
    (hmem : n ∈ tbl.map Prod.fst) :
    ∃ k ∈ tbl.map Prod.fst, stLen temp m < k ∧
      (∀ j ∈ tbl.map Prod.fst, stLen temp m < j → k ≤ j) ∧
      searchTold temp (a, m) tbl =
        .throw .invalidArgument (shortText temp.length ((k - m + 7) / 8)) := by
  induction tbl with
  | nil => simp at hmem
  | cons p rest ih =>
      obtain ⟨k0, mp⟩ := p
      have hp : (k0, mp) ∈ decodeTable := hsub _ (by simp)
      obtain ⟨h5, h30⟩ := decodeTable_bounds hp
      simp only [List.map_cons, List.pairwise_cons, List.mem_cons] at hsort hmem
      rw [searchTold]
      have hnl : ¬ (temp.length = 0 ∧ m < k0) := fun h => ht (List.length_eq_zero_iff.1 h.1)
      rw [if_neg hnl]
      by_cases hk : stLen temp m < k0
      · refine ⟨k0, by simp, hk, ?_, ?_⟩
        · intro j hj _
          simp only [List.map_cons, List.mem_cons] at hj
          rcases hj with rfl | hj
          · exact le_refl _
          · exact le_of_lt (hsort.1 j hj)
        · rw [candidateTold_short hk]
          rfl
      · have hk' : k0 ≤ stLen temp m := by omega
        have hne : k0 ≠ n := by omega
        obtain ⟨c, k, er, h1, -⟩ := candidate_ok hm ha h5 h30 hk'
        have h1' := toRes_eq_ok.1 ((candidateTold_toRes temp (a, m) k0).trans h1)
        have hlk : mp.lookup (stVal temp a / 2 ^ (stLen temp m - k0)) = none := by
          cases hl : mp.lookup (stVal temp a / 2 ^ (stLen temp m - k0)) with
          | none => rfl
          | some t =>
              rw [decodeTable_lookup hp] at hl
              have := (ho.only _ _ _ hl hk').1 rfl
              exact (hne (Prod.mk.inj (Prod.mk.inj this).2).1).elim
        obtain ⟨j, g1, g2, g3, g4⟩ := ih (fun q hq => hsub q (by simp [hq])) hsort.2
          (hmem.resolve_left fun h => hne h.symm)
        refine ⟨j, List.mem_cons_of_mem _ g1, g2, ?_, ?_⟩
        · intro i hi hlt
          simp only [List.map_cons, List.mem_cons] at hi
          rcases hi with rfl | hi
          · omega
          · exact g3 i hi hlt
        · rw [h1', ← g4]
          show (match mp.lookup _ with | some sym => _ | none => _) = _
          rw [hlk]

theorem huffLengths_iff (k : Nat) : k ∈ huffLengths ↔ k ∈ decodeTable.map Prod.fst := by
  rw [decodeTable_lengths]
  have h1 : ∀ k ∈ huffLengths, k ∈ [5, 6, 7, 8, 10, 11, 12, 13, 14, 15, 19, 20, 21, 22, 23, 24, 25,
      26, 27, 28, 30] := by decide +kernel
  have h2 : ∀ k ∈ [5, 6, 7, 8, 10, 11, 12, 13, 14, 15, 19, 20, 21, 22, 23, 24, 25, 26, 27, 28, 30],
      k ∈ huffLengths := by decide +kernel
  exact ⟨h1 k, h2 k⟩

/-- As `EndsInCode`, for bits. -/
def BitsEnd (l : List Bool) (left needed : Nat) : Prop :=
  ∃ (symbols : List Nat) (bitsLeft : List Bool) (n : Nat),
    l = symbols.flatMap huffCode ++ bitsLeft ∧ (∀ s ∈ symbols, s < 257) ∧
      (∀ s < 257, ¬ huffCode s <+: bitsLeft) ∧ 8 ≤ bitsLeft.length ∧
      n ∈ huffLengths ∧ bitsLeft.length < n ∧ (∀ k ∈ huffLengths, bitsLeft.length < k → n ≤ k) ∧
      left = bitsLeft.length / 8 ∧ needed = (n - bitsLeft.length % 8 + 7) / 8

theorem BitsEnd.cons {l : List Bool} {left needed s : Nat} (hs : s < 257)
    (h : BitsEnd l left needed) : BitsEnd (huffCode s ++ l) left needed := by
  obtain ⟨sy, b, n, h1, h2, h3⟩ := h
  refine ⟨s :: sy, b, n, by simp [h1], ?_, h3⟩
  intro t ht
  rcases List.mem_cons.1 ht with rfl | ht
  · exact hs
  · exact h2 t ht

theorem decodeLoopTold_what (L total decoded : Nat) (temp : Bytes) (a m : Nat) (out : Bytes)
    (hL : stLen temp m = L) (hm : m ≤ 7) (ha : a < 2 ^ m) (ht : decoded + L = total) {e : Exc}
    {w : What} (h : decodeLoopTold total decoded temp (a, m) out = .throw e w) :
    e = .invalidArgument ∧ ∃ left needed, BitsEnd (bits L (stVal temp a)) left needed ∧
      w = shortText left needed := by
  induction L using Nat.strong_induction_on generalizing decoded temp a m out with
  | _ L ih =>
    unfold decodeLoopTold at h
    by_cases h0 : decoded < total
    · rw [if_pos h0] at h
      obtain ⟨s, n, v, ho⟩ := owner_exists (temp := temp) ha
      have hs := huffTable_lt ho.mem
      obtain ⟨h5, h30, hv⟩ := huffTable_bounds ho.mem
      by_cases hn : n ≤ stLen temp m
      · obtain ⟨c, k, er, h1, h2, h3, h4, h6, h7⟩ :=
          search_found hm ha ho hn decodeTable (fun _ h => h) decodeTable_sorted
            (huffTable_length_mem ho.mem)
        have h1' := toRes_eq_ok.1 ((searchTold_toRes temp (a, m) decodeTable).trans h1)
        rw [h1'] at h
        simp only at h
        have he : eraseFirst er temp = .ok (temp.drop er) := by
          unfold eraseFirst; rw [if_pos h2]
        rw [he] at h
        simp only at h
        rw [if_pos (by omega)] at h
        have hsplit : bits L (stVal temp a) = huffCode s ++ bits (L - n) (stVal (temp.drop er) c) := by
          rw [← hL, bits_split _ hn, (ho.only _ _ _ ho.mem hn).2 rfl, huffCode_eq ho.mem, h6]
        obtain ⟨g1, left, needed, g2, g3⟩ := ih (L - n) (by omega) (decoded + n) (temp.drop er) c k
          (out ++ [u8 s]) (by rw [h7, hL]) h3 h4 (by omega) h
        exact ⟨g1, left, needed, hsplit ▸ g2.cons hs, g3⟩
      · have hno := owner_not_prefix ha ho (by omega : stLen temp m < n)
        by_cases hte : temp = []
        · subst hte
          have h1 := search_short hm ha ho (by omega) decodeTable (fun _ h => h) decodeTable_sorted
            (huffTable_length_mem ho.mem)
          rw [if_pos rfl] at h1
          have h1' := toRes_eq_ok.1 ((searchTold_toRes [] (a, m) decodeTable).trans h1)
          rw [h1'] at h
          have hmL : m = L := by simpa [stLen] using hL
          simp only at h
          rw [if_pos (by omega)] at h
          unfold decodeLoopTold at h
          rw [if_neg (by omega)] at h
          cases h
        · obtain ⟨k, k1, k2, k3, k4⟩ := searchTold_short hm ha ho (by omega) hte decodeTable
            (fun _ h => h) decodeTable_sorted (huffTable_length_mem ho.mem)
          rw [k4] at h
          simp only at h
          injection h with e1 e2
          have hpos := List.length_pos_iff.2 hte
          refine ⟨e1.symm, temp.length, (k - m + 7) / 8,
            ⟨[], bits L (stVal temp a), k, by simp, by simp, ?_, ?_, (huffLengths_iff k).2 k1, ?_, ?_,
              ?_, ?_⟩, e2.symm⟩
          · rw [← hL]; exact hno
          · rw [bits_length, ← hL]; unfold stLen; omega
          · rw [bits_length, ← hL]; exact k2
          · intro j hj hlt
            rw [bits_length, ← hL] at hlt
            exact k3 j ((huffLengths_iff j).1 hj) hlt
          · rw [bits_length, ← hL]; unfold stLen; omega
          · rw [bits_length, ← hL]
            have : stLen temp m % 8 = m := by unfold stLen; omega
            rw [this]
    · rw [if_neg h0] at h
      cases h

theorem decodeTold_what {data : Bytes} {e : Exc} {w : What} (h : decodeTold data = .throw e w) :
    e = .invalidArgument ∧ ∃ left needed, EndsInCode data left needed ∧
      w = shortText left needed := by
  have := decodeLoopTold_what (8 * data.length) (data.length * 8) 0 data 0 0 [] (by simp [stLen])
    (by omega) (by simp) (by omega) h
  unfold EndsInCode
  rw [bytesBits_eq]
  simpa [stVal, BitsEnd] using this

theorem codes_unique {s1 s2 : List Nat} {r1 r2 : List Bool}
    (h : s1.flatMap huffCode ++ r1 = s2.flatMap huffCode ++ r2)
    (h1 : ∀ s ∈ s1, s < 257) (h2 : ∀ s ∈ s2, s < 257)
    (n1 : ∀ s < 257, ¬ huffCode s <+: r1) (n2 : ∀ s < 257, ¬ huffCode s <+: r2) :
    s1 = s2 ∧ r1 = r2 := by
  induction s1 generalizing s2 with
  | nil =>
      cases s2 with
      | nil => exact ⟨rfl, by simpa using h⟩
      | cons t ts =>
          refine (n1 t (h2 t (by simp)) ?_).elim
          rw [List.flatMap_nil, List.nil_append, List.flatMap_cons, List.append_assoc] at h
          rw [h]
          exact List.prefix_append _ _
  | cons u us ih =>
      cases s2 with
      | nil =>
          refine (n2 u (h1 u (by simp)) ?_).elim
          rw [List.flatMap_nil, List.nil_append, List.flatMap_cons, List.append_assoc] at h
          rw [← h]
          exact List.prefix_append _ _
      | cons t ts =>
          rw [List.flatMap_cons, List.flatMap_cons, List.append_assoc, List.append_assoc] at h
          have : u = t := by
            refine huffCode_prefix_free (h1 u (by simp)) (h2 t (by simp))
              (List.prefix_append _ (us.flatMap huffCode ++ r1)) ?_
            rw [h]
            exact List.prefix_append _ _
          subst this
          obtain ⟨e1, e2⟩ := ih (List.append_cancel_left h) (fun s hs => h1 s (by simp [hs]))
            (fun s hs => h2 s (by simp [hs]))
          exact ⟨by rw [e1], e2⟩

theorem _root_.Mh2c.EndsInCode.unique {bad : Bytes} {l1 l2 n1 n2 : Nat} (h1 : EndsInCode bad l1 n1)
    (h2 : EndsInCode bad l2 n2) : l1 = l2 ∧ n1 = n2 := by
  obtain ⟨s1, b1, k1, a1, a2, a3, a4, a5, a6, a7, rfl, rfl⟩ := h1
  obtain ⟨s2, b2, k2, c1, c2, c3, c4, c5, c6, c7, rfl, rfl⟩ := h2
  obtain ⟨-, rfl⟩ := codes_unique (a1.symm.trans c1) a2 c2 a3 c3
  have : k1 = k2 := le_antisymm (a7 k2 c5 c6) (c7 k1 a5 a6)
  subst this
  exact ⟨rfl, rfl⟩

theorem _root_.Mh2c.EndsInCode.not_parse {bad : Bytes} {l n : Nat} (h : EndsInCode bad l n)
    (syms : List Nat) (rest : List Bool) : ¬ HuffParse (bytesBits bad) syms rest := by
  obtain ⟨s1, b1, k1, a1, a2, a3, a4, -⟩ := h
  rintro ⟨c1, c2, c3, c4⟩
  obtain ⟨-, rfl⟩ := codes_unique (a1.symm.trans c1) a2 c3 a3 c4
  omega

end Huffman

theorem quiet_ne_throw {α : Type} {x : Res α} (hx : ∀ e, x ≠ .throw e) (e : Exc) (w : What) :
    Told.quiet x ≠ .throw e w := fun h => hx e (saying_eq_throw h).1

theorem HuffmanAt.of_append {v bad : Bytes} (h : HuffmanAt v bad) (a b : Bytes) :
    HuffmanAt (a ++ v ++ b) bad := by
  obtain ⟨x, l, y, rest, o, h1, h2, h3, h4, h5⟩ := h
  refine ⟨a ++ x, l, y ++ b, rest ++ b, o, ?_, h2, h3, h4, ?_⟩
  · rw [h1]; simp only [List.append_assoc]
  · have := intDecode_append (more := b) h5
    simpa only [List.append_assoc] using this

theorem HuffmanText.of_append {v : Bytes} {w : What} (h : HuffmanText v w) (a b : Bytes) :
    HuffmanText (a ++ v ++ b) w := by
  obtain ⟨bad, l, n, h1, h2⟩ := h
  exact ⟨bad, l, n, h1.of_append a b, h2⟩

theorem HuffmanText.of_drop {v : Bytes} {w : What} {n : Nat} (h : HuffmanText (v.drop n) w) :
    HuffmanText v w := by
  simpa using h.of_append (v.take n) []

theorem decodeHeaderStringTold_what [Platform] {v : Bytes} {e : Exc} {w : What}
    (h : decodeHeaderStringTold v = .throw e w) : e = .invalidArgument ∧ HuffmanText v w := by
  unfold decodeHeaderStringTold at h
  rcases Told.bind_eq_throw h with h1 | ⟨⟨length, il⟩, h1, h⟩
  · exact absurd h1 (quiet_ne_throw (decodeIntWithLength_ne_throw _ _) _ _)
  replace h1 := saying_eq_ok.1 h1
  have hb := decodeIntWithLength_bounds (by omega) h1
  unfold decodeIntWithLength at h1
  obtain ⟨y, g1, g2⟩ := Res.bind_eq_ok.1 h1
  injection g2 with g2
  injection g2 with g3 g4
  subst g3 g4
  obtain ⟨rest, k1, k2, -⟩ := (decodeIntegerValue_spec 7 (by omega) v y).1 g1
  have k3 := encode_length_le_used (by omega) k1
  rcases Told.bind_eq_throw h with h3 | ⟨first, h3, h⟩
  · exact absurd h3 (quiet_ne_throw (front_ne_throw _) _ _)
  replace h3 := saying_eq_ok.1 h3
  simp only at h
  split at h
  · rename_i hbit
    rcases Told.bind_eq_throw h with h5 | ⟨data, h5, h⟩
    · exact absurd h5 (quiet_ne_throw (copyRange_ne_throw _ _ _) _ _)
    replace h5 := saying_eq_ok.1 h5
    rcases Told.bind_eq_throw h with h1 | ⟨out, -, h⟩
    · obtain ⟨he, left, needed, q1, q2⟩ := Huffman.decodeTold_what h1
      refine ⟨he, data, left, needed, ?_, q1, q2⟩
      unfold copyRange at h5
      split at h5
      swap
      · cases h5
      rename_i hlen
      injection h5 with h5
      have hdl : data.length = y := by
        rw [← h5, List.length_take, List.length_drop]; omega
      have hv : v.take (encodeIntegerValue 7 y).length ++ data ++
          v.drop ((encodeIntegerValue 7 y).length + y) = v := by
        rw [← h5, ← List.drop_drop, List.append_assoc, List.take_append_drop, List.take_append_drop]
      refine ⟨[], v.take (encodeIntegerValue 7 y).length,
        v.drop ((encodeIntegerValue 7 y).length + y), rest, first, ?_, ?_, ?_, ?_, ?_⟩
      · rw [List.nil_append, hv]
      · cases v with
        | nil => simp [front] at h3
        | cons c cs =>
            have hc : c = first := by simpa [front] using h3
            obtain ⟨j, hj⟩ : ∃ j, (encodeIntegerValue 7 y).length = j + 1 :=
              ⟨(encodeIntegerValue 7 y).length - 1, by omega⟩
            rw [hj, List.take_succ_cons, hc]; rfl
      · by_contra hlt
        apply hbit
        have : ∀ x : UInt8, ¬ 128 ≤ x.toNat → highBits 8 1 x.toNat = 0 := fun x =>
          of_decide_eq_true <| u8_all (p := fun x => ¬ 128 ≤ x.toNat → highBits 8 1 x.toNat = 0)
            (by decide +kernel) x
        exact this first hlt
      · rw [List.length_take]; omega
      · rw [hv, hdl]; exact k1
    rcases Told.bind_eq_throw h with h1 | ⟨out, -, h⟩
    · exact absurd h1 (quiet_ne_throw (addressRange_ne_throw _ _ _) _ _)
    cases h
  · rcases Told.bind_eq_throw h with h1 | ⟨out, -, h⟩
    · exact absurd h1 (quiet_ne_throw (addressRange_ne_throw _ _ _) _ _)
    cases h

theorem decodeLiteralTold_what [Platform] {v : Bytes} {p : HeaderPrefix} {ih : Header} {n : Nat}
    {e : Exc} {w : What} (h : decodeLiteralTold v p ih n = .throw e w) :
    e = .invalidArgument ∧ HuffmanText v w := by
  unfold decodeLiteralTold at h
  rcases Told.bind_eq_throw h with h1 | ⟨data, hd, h⟩
  · exact absurd h1 (quiet_ne_throw (eraseFirst_ne_throw _ _) _ _)
  obtain ⟨-, rfl⟩ := eraseFirst_ok (saying_eq_ok.1 hd)
  split at h
  · rcases Told.bind_eq_throw h with h1 | ⟨⟨name, nl⟩, -, h⟩
    · exact ⟨(decodeHeaderStringTold_what h1).1, (decodeHeaderStringTold_what h1).2.of_drop⟩
    rcases Told.bind_eq_throw h with h1 | ⟨data', hd', h⟩
    · exact absurd h1 (quiet_ne_throw (eraseFirst_ne_throw _ _) _ _)
    obtain ⟨-, rfl⟩ := eraseFirst_ok (saying_eq_ok.1 hd')
    rcases Told.bind_eq_throw h with h1 | ⟨⟨value, vl⟩, -, h⟩
    · exact ⟨(decodeHeaderStringTold_what h1).1, (decodeHeaderStringTold_what h1).2.of_drop.of_drop⟩
    rcases Told.bind_eq_throw h with h1 | ⟨data'', -, h⟩
    · exact absurd h1 (quiet_ne_throw (eraseFirst_ne_throw _ _) _ _)
    cases h
  · rcases Told.bind_eq_throw h with h1 | ⟨⟨value, vl⟩, -, h⟩
    · exact ⟨(decodeHeaderStringTold_what h1).1, (decodeHeaderStringTold_what h1).2.of_drop⟩
    rcases Told.bind_eq_throw h with h1 | ⟨data'', -, h⟩
    · exact absurd h1 (quiet_ne_throw (eraseFirst_ne_throw _ _) _ _)
    cases h

theorem makeIndexedHeaderTold_what {i : Nat} {t : DynamicTable} {e : Exc} {w : What} (h0 : 0 < i)
    (h : makeIndexedHeaderTold i t = .throw e w) :
    e = .outOfRange ∧ w = .vectorAt (i - 62) t.entries.length ∧ 61 + t.entries.length < i := by
  have h1 : makeIndexedHeader i t = .throw e := by rw [← makeIndexedHeaderTold_toRes, h]; rfl
  obtain ⟨h2, h3⟩ := makeIndexedHeader_throw h0 h1
  refine ⟨h2, ?_, h3⟩
  unfold makeIndexedHeaderTold at h
  rw [staticTable_length, if_pos (by omega)] at h
  rw [(saying_eq_throw h).2]
  congr 1

theorem MissingAt.of_append {v : Bytes} {t : List Field} {i : Nat} (h : MissingAt v t i)
    (a b : Bytes) : MissingAt (a ++ v ++ b) t i := by
  obtain ⟨x, rep, rest, o, n, h1, h2, h3, h4, h5⟩ := h
  refine ⟨a ++ x, rep ++ b, rest ++ b, o, n, ?_, ?_, h3, intDecode_append h4 b, h5⟩
  · rw [h1]; simp only [List.append_assoc]
  · cases rep with
    | nil => cases h2
    | cons c cs => exact h2

/-- Why decoding a header block throws, and with what text. -/
def Texted (v : Bytes) (t : List Field) (e : Exc) (w : What) : Prop :=
  (e = .invalidArgument ∧ HuffmanText v w) ∨ (e = .outOfRange ∧ MissingText v t w)

theorem Texted.of_append {v : Bytes} {t : List Field} {e : Exc} {w : What} (h : Texted v t e w)
    (a b : Bytes) : Texted (a ++ v ++ b) t e w := by
  rcases h with h | ⟨h1, i, h2, h3⟩
  · exact Or.inl ⟨h.1, h.2.of_append a b⟩
  · exact Or.inr ⟨h1, i, h2.of_append a b, h3⟩

theorem Texted.of_drop {v : Bytes} {t : List Field} {e : Exc} {w : What} {n : Nat}
    (h : Texted (v.drop n) t e w) : Texted v t e w := by
  simpa using h.of_append (v.take n) []

theorem Texted.of_take {v : Bytes} {t : List Field} {e : Exc} {w : What} {n : Nat}
    (h : Texted (v.take n) t e w) : Texted v t e w := by
  simpa using h.of_append [] (v.drop n)

theorem indexBits_of_class (b : UInt8) :
    (prefixClass b.toNat = .indexed → indexBits b = some 7) ∧
    (prefixClass b.toNat = .incrementalIndexing → indexBits b = some 6) ∧
    (prefixClass b.toNat = .withoutIndexing → indexBits b = some 4) ∧
    (prefixClass b.toNat = .neverIndexed → indexBits b = some 4) :=
  of_decide_eq_true <| u8_all (p := fun b =>
    (prefixClass b.toNat = .indexed → indexBits b = some 7) ∧
    (prefixClass b.toNat = .incrementalIndexing → indexBits b = some 6) ∧
    (prefixClass b.toNat = .withoutIndexing → indexBits b = some 4) ∧
    (prefixClass b.toNat = .neverIndexed → indexBits b = some 4)) (by decide +kernel) b

theorem decodeIndex_index {b : UInt8} {bs : Bytes} {i l : Nat}
    (hp : prefixClass b.toNat ≠ .sizeUpdate)
    (h : decodeIndex (b :: bs) (prefixClass b.toNat) = .ok (i, l)) :
    ∃ n rest, indexBits b = some n ∧ intDecode n (b :: bs) = some (i, rest) := by
  obtain ⟨c1, c2, c3, c4⟩ := indexBits_of_class b
  have key : ∀ n, n ≤ 8 → decodeIntWithLength n (b :: bs) = .ok (i, l) → indexBits b = some n →
      ∃ n rest, indexBits b = some n ∧ intDecode n (b :: bs) = some (i, rest) := by
    intro n hn h1 hb
    unfold decodeIntWithLength at h1
    obtain ⟨y, g1, g2⟩ := Res.bind_eq_ok.1 h1
    injection g2 with g2
    injection g2 with g3 g4
    subst g3
    obtain ⟨rest, k1, -, -⟩ := (decodeIntegerValue_spec n hn _ y).1 g1
    exact ⟨n, rest, hb, k1⟩
  unfold decodeIndex at h
  cases hc : prefixClass b.toNat with
  | indexed => rw [hc] at h; exact key 7 (by omega) h (c1 hc)
  | incrementalIndexing => rw [hc] at h; exact key 6 (by omega) h (c2 hc)
  | withoutIndexing => rw [hc] at h; exact key 4 (by omega) h (c3 hc)
  | neverIndexed => rw [hc] at h; exact key 4 (by omega) h (c4 hc)
  | sizeUpdate => exact absurd hc hp

theorem decodeHeaderTold_what [Platform] {v : Bytes} {t : DynamicTable} {e : Exc} {w : What}
    (h : decodeHeaderTold v t = .throw e w) : Texted v t.entries e w := by
  unfold decodeHeaderTold at h
  cases v with
  | nil => simp [front, Told.quiet, saying] at h
  | cons b bs =>
  rcases Told.bind_eq_throw h with h1 | ⟨first, h1, h⟩
  · exact absurd h1 (quiet_ne_throw (front_ne_throw _) _ _)
  obtain rfl : b = first := Res.ok.inj (saying_eq_ok.1 h1)
  rcases Told.bind_eq_throw h with h1 | ⟨p, h1, h⟩
  · have := (saying_eq_throw h1).1
    rw [checkPrefix_eq] at this
    cases this
  have hpc : prefixClass b.toNat = p := by
    have := saying_eq_ok.1 h1
    rw [checkPrefix_eq] at this
    exact Res.ok.inj this
  subst hpc
  split at h
  · rcases Told.bind_eq_throw h with h1 | ⟨⟨n, l⟩, -, h⟩
    · exact absurd h1 (quiet_ne_throw (decodeIntWithLength_ne_throw _ _) _ _)
    cases h
  rename_i hp
  rcases Told.bind_eq_throw h with h1 | ⟨⟨index, il⟩, h1, h⟩
  · exfalso
    have := (saying_eq_throw h1).1
    unfold decodeIndex at this
    split at this
    · exact decodeIntWithLength_ne_throw _ _ _ this
    · exact decodeIntWithLength_ne_throw _ _ _ this
    · exact decodeIntWithLength_ne_throw _ _ _ this
    · exact decodeIntWithLength_ne_throw _ _ _ this
    · rename_i hs
      exact hp hs
  simp only at h
  have lit : ∀ ih : Header, (if prefixClass b.toNat = .indexed then
      (return (HeaderEntry.ofHeader (prefixClass b.toNat) ih, il) : Told (HeaderEntry × Nat))
      else decodeLiteralTold (b :: bs) (prefixClass b.toNat) ih il) = .throw e w →
      Texted (b :: bs) t.entries e w := by
    intro ih h4
    split at h4
    · cases h4
    · exact Or.inl (decodeLiteralTold_what h4)
  split at h
  · rename_i h0
    rcases Told.bind_eq_throw h with h2 | ⟨ih, -, h⟩
    · obtain ⟨g1, g2, g3⟩ := makeIndexedHeaderTold_what h0 h2
      obtain ⟨n, rest, k1, k2⟩ := decodeIndex_index hp (saying_eq_ok.1 h1)
      exact Or.inr ⟨g1, index, ⟨[], b :: bs, rest, b, n, rfl, rfl, k1, k2, g3⟩, g2⟩
    · exact lit ih h
  · exact lit _ h

theorem decodeHeaderBlockTold_what [Platform] {v : Bytes} {t : DynamicTable} {e : Exc} {w : What}
    (h : decodeHeaderBlockTold v t = .throw e w) : Texted v t.entries e w := by
  unfold decodeHeaderBlockTold at h
  split at h
  swap
  · cases h
  split at h
  · rename_i e' w' he
    injection h with h1 h2
    subst h1 h2
    exact decodeHeaderTold_what he
  · cases h
  · cases h
  · rename_i entry n he
    split at h
    · cases h
    · split at h
      · rcases Told.bind_eq_throw h with h1 | ⟨_, -, h2⟩
        · exact (decodeHeaderBlockTold_what h1).of_drop
        · cases h2
      · cases h
termination_by v.length
decreasing_by simp; omega

theorem extractPadding_texted {flags : UInt8} {raw pad rest : Bytes} {t : List Field} {e : Exc}
    {w : What} (h : extractPadding flags raw = .ok (pad, rest)) (hc : Texted rest t e w) :
    Texted raw t e w := by
  unfold extractPadding at h
  split at h
  · obtain ⟨n, -, h1⟩ := Res.bind_eq_ok.1 h
    split at h1
    · cases h1
    · obtain ⟨r, h2, h3⟩ := Res.bind_eq_ok.1 h1
      injection h3 with h3
      injection h3 with h4 h5
      subst h5
      unfold eraseFirst at h2
      split at h2
      · obtain rfl := (Res.ok.inj h2).symm
        exact hc.of_drop.of_take
      · cases h2
  · injection h with h
    injection h with h1 h2
    subst h2
    exact hc

theorem extractPriority_ne_throw (flags : UInt8) (raw : Bytes) (e : Exc) :
    extractPriority flags raw ≠ .throw e := by
  unfold extractPriority
  split
  · intro h
    rcases Mh2c.bind_eq_throw h with h1 | ⟨_, -, h⟩
    · exact copyRange_ne_throw _ _ _ _ h1
    rcases Mh2c.bind_eq_throw h with h1 | ⟨_, -, h⟩
    · exact readAt_ne_throw _ _ _ h1
    rcases Mh2c.bind_eq_throw h with h1 | ⟨_, -, h⟩
    · exact bytes2integral_ne_throw _ _ _ h1
    rcases Mh2c.bind_eq_throw h with h1 | ⟨_, -, h⟩
    · exact eraseFirst_ne_throw _ _ _ h1
    rcases Mh2c.bind_eq_throw h with h1 | ⟨_, -, h⟩
    · exact front_ne_throw _ _ h1
    rcases Mh2c.bind_eq_throw h with h1 | ⟨_, -, h⟩
    · exact eraseFirst_ne_throw _ _ _ h1
    cases h
  · simp

theorem extractPriority_texted {flags : UInt8} {raw rest : Bytes} {p : PriorityOption}
    {t : List Field} {e : Exc} {w : What} (h : extractPriority flags raw = .ok (p, rest))
    (hc : Texted rest t e w) : Texted raw t e w := by
  have er : ∀ {n : Nat} {a b : Bytes}, eraseFirst n a = .ok b → b = a.drop n := by
    intro n a b h
    unfold eraseFirst at h
    split at h
    · exact (Res.ok.inj h).symm
    · cases h
  unfold extractPriority at h
  split at h
  · obtain ⟨_, -, h⟩ := Res.bind_eq_ok.1 h
    obtain ⟨_, -, h⟩ := Res.bind_eq_ok.1 h
    obtain ⟨_, -, h⟩ := Res.bind_eq_ok.1 h
    obtain ⟨a, h1, h⟩ := Res.bind_eq_ok.1 h
    obtain ⟨_, -, h⟩ := Res.bind_eq_ok.1 h
    obtain ⟨b, h2, h⟩ := Res.bind_eq_ok.1 h
    injection h with h
    injection h with h3 h4
    subst h4
    obtain rfl := er h1
    obtain rfl := er h2
    exact hc.of_drop.of_drop
  · injection h with h
    injection h with h1 h2
    subst h2
    exact hc

theorem buildFrameTold_messages [Platform] (fh : FrameHeader) (raw : Bytes) (t : DynamicTable) :
    (buildFrameTold fh raw t).2.length = buildFrameMessages fh raw t := by
  unfold buildFrameTold buildFrameMessages
  cases frameTypeOf fh.type with
  | none => rfl
  | some ty =>
      cases ty with
      | headers =>
          show (buildHeadersFrameTold fh raw t).2.length = buildHeadersMessages fh raw t
          unfold buildHeadersFrameTold buildHeadersMessages
          rw [← HeadersFrame.ofRawTold_toRes]
          cases HeadersFrame.ofRawTold fh raw t <;> rfl
      | _ => rfl

theorem processFrameTold_messages [Platform] (c : Client) (fh : FrameHeader) (raw : Bytes) :
    (c.processFrameTold fh raw).2.2.length = buildFrameMessages fh raw c.responseTable := by
  rw [← buildFrameTold_messages]
  unfold Client.processFrameTold
  rcases buildFrameTold fh raw c.responseTable with ⟨_ | _ | _ | _, said⟩
  · simp only
    rcases updateDynamicTableFrameTold _ c.responseTable with ⟨_ | _ | _ | _, t⟩ <;> rfl
  all_goals rfl

theorem receiveFrameTold_messages [Platform] (c : Client) :
    c.receiveFrameTold.2.2.length = c.receiveFrameMessages := by
  unfold Client.receiveFrameTold Client.receiveFrameMessages Client.receiveRawDataTold
  rcases c.receiveRawData 9 with ⟨rawFh | _ | _ | _, c1⟩
  · simp only [saying]
    cases buildFrameHeader rawFh with
    | ok fh =>
        simp only
        split
        · rcases c1.receiveRawData fh.length.toNat with ⟨raw | _ | _ | _, c2⟩
          · exact processFrameTold_messages _ _ _
          all_goals rfl
        · exact processFrameTold_messages _ _ _
    | _ => rfl
  all_goals rfl

end Mh2c
