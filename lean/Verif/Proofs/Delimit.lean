/-
Helper lemmas: decoding a block of complete representations is safe.
-/
import Verif.Proofs.Received
import Verif.Proofs.Split
import Verif.Spec.Delimit

namespace Mh2c

open Rfc

theorem safe_bind {α β : Type} {x : Res α} {f : α → Res β} (hx : x.Safe)
    (hf : ∀ a, x = .ok a → (f a).Safe) : (x >>= f).Safe := by
  cases x with
  | ok a => exact hf a rfl
  | throw e => trivial
  | ub k => exact hx
  | diverge => exact hx

/-- A literal string that is complete: safe, and the code's count is the length. -/
theorem decodeHeaderString_span [P : Platform] (hP : P.strictIndex = false) {bs rest : Bytes}
    (h : StringSpan clientInt bs rest) :
    (decodeHeaderString bs).Safe ∧ rest.length < bs.length ∧
      (∀ s n, decodeHeaderString bs = .ok (s, n) → n = bs.length - rest.length) ∧
      rest = bs.drop (bs.length - rest.length) := by
  obtain ⟨data, hi⟩ : ∃ data, clientInt 7 bs = some (data.length, data ++ rest) := by
    cases h with | mk data _ hi => exact ⟨data, hi⟩
  obtain ⟨h1, h2, h3⟩ := decodeIntWithLength_clientInt (by omega) hi
  rw [List.length_append] at h1 h2 h3
  obtain ⟨b, tl, rfl⟩ := List.exists_cons_of_ne_nil (l := bs) (by rintro rfl; simp at h2)
  have hr : rest = (b :: tl).drop ((b :: tl).length - rest.length) := by
    have : (b :: tl).length - rest.length =
      (b :: tl).length - (data.length + rest.length) + data.length := by omega
    rw [this, ← List.drop_drop, ← h3, List.drop_left]
  refine ⟨?_, by omega, ?_, hr⟩
  · unfold decodeHeaderString
    rw [h1, Res.ok_bind]
    simp only [front, Res.ok_bind]
    split
    · refine safe_bind ?_ (fun d _ => safe_bind ?_ (fun out _ => ?_))
      · unfold copyRange
        rw [if_pos (by omega)]; trivial
      · rcases decode_spec d with ⟨syms, rest, -, h⟩ | ⟨-, h⟩ <;> rw [h] <;> trivial
      · rw [addressRange_zero (Or.inl hP)]; trivial
    · unfold addressRange
      rw [if_pos (by omega), if_neg (by rw [hP]; simp)]; trivial
  · intro s n h
    unfold decodeHeaderString at h
    rw [h1, Res.ok_bind] at h
    simp only [front, Res.ok_bind] at h
    split at h
    · obtain ⟨_, -, h⟩ := Res.bind_eq_ok.1 h
      obtain ⟨_, -, h⟩ := Res.bind_eq_ok.1 h
      obtain ⟨_, -, h⟩ := Res.bind_eq_ok.1 h
      have := (Prod.mk.inj (Res.ok.inj h)).2
      omega
    · obtain ⟨_, -, h⟩ := Res.bind_eq_ok.1 h
      have := (Prod.mk.inj (Res.ok.inj h)).2
      omega

theorem mem_of_lookup {α : Type} {i : Nat} {h : α} :
    ∀ {l : List (Nat × α)}, l.lookup i = some h → (i, h) ∈ l
  | [], hs => by cases hs
  | (k, x) :: l, hs => by
      rw [List.lookup_cons] at hs
      split at hs
      · rename_i hk
        have : i = k := by simpa using hk
        rw [this, Option.some.inj hs]
        exact List.mem_cons_self
      · exact List.mem_cons_of_mem _ (mem_of_lookup hs)

theorem static_named {i : Nat} {h : Header} (hs : staticTableEntries.lookup i = some h) :
    h.1 ≠ [] := by
  have : staticTableEntries.all (fun p => !p.2.1.isEmpty) = true := by decide +kernel
  have := List.all_eq_true.1 this _ (mem_of_lookup hs)
  intro hc
  simp only [hc] at this
  cases this

theorem makeIndexedHeader_safe (i : Nat) (table : DynamicTable) :
    (makeIndexedHeader i table).Safe := by
  unfold makeIndexedHeader
  split
  · unfold DynamicTable.atPos
    split <;> trivial
  · unfold staticTableAt
    split <;> trivial

theorem makeIndexedHeader_named {i : Nat} {table : DynamicTable} (ht : NamedTable table) {h : Header}
    (hm : makeIndexedHeader i table = .ok h) : h.1 ≠ [] := by
  unfold makeIndexedHeader at hm
  split at hm
  · unfold DynamicTable.atPos at hm
    split at hm
    · rename_i g hg
      rw [← Res.ok.inj hm]
      exact ht _ (List.mem_of_getElem? hg)
    · cases hm
  · unfold staticTableAt at hm
    split at hm
    · rename_i g hg
      rw [← Res.ok.inj hm]
      exact static_named hg
    · cases hm

/-- A literal with an indexed name. -/
theorem decodeLiteral_indexed [P : Platform] (hP : P.strictIndex = false) {bs rest1 rest : Bytes}
    (p : HeaderPrefix) {ih : Header} (hih : ih.1 ≠ []) (hl : rest1.length < bs.length)
    (hd : rest1 = bs.drop (bs.length - rest1.length)) (hv : StringSpan clientInt rest1 rest) :
    (decodeLiteral bs p ih (bs.length - rest1.length)).Safe ∧
      (∀ e n, decodeLiteral bs p ih (bs.length - rest1.length) = .ok (e, n) →
        n = bs.length - rest.length) := by
  obtain ⟨h1, h2, h3, h4⟩ := decodeHeaderString_span hP hv
  unfold decodeLiteral
  rw [eraseFirst_drop (by omega), Res.ok_bind, ← hd, if_neg
    (fun h => hih (List.length_eq_zero_iff.1 h))]
  constructor
  · refine safe_bind h1 ?_
    rintro ⟨s, n⟩ hs
    have := h3 s n hs
    simp only
    rw [eraseFirst_drop (by omega)]
    trivial
  · intro e n h
    obtain ⟨⟨s, m⟩, hs, h⟩ := Res.bind_eq_ok.1 h
    have := h3 s m hs
    simp only at h
    rw [eraseFirst_drop (by omega)] at h
    have := (Prod.mk.inj (Res.ok.inj h)).2
    omega

/-- A literal with a literal name. -/
theorem decodeLiteral_new [P : Platform] (hP : P.strictIndex = false) {bs rest1 rest2 rest : Bytes}
    (p : HeaderPrefix) (hl : rest1.length < bs.length)
    (hd : rest1 = bs.drop (bs.length - rest1.length)) (hn : StringSpan clientInt rest1 rest2)
    (hv : StringSpan clientInt rest2 rest) :
    (decodeLiteral bs p ([], []) (bs.length - rest1.length)).Safe ∧
      (∀ e n, decodeLiteral bs p ([], []) (bs.length - rest1.length) = .ok (e, n) →
        n = bs.length - rest.length) := by
  obtain ⟨h1, h2, h3, h4⟩ := decodeHeaderString_span hP hn
  obtain ⟨g1, g2, g3, g4⟩ := decodeHeaderString_span hP hv
  unfold decodeLiteral
  rw [eraseFirst_drop (by omega), Res.ok_bind, ← hd,
    if_pos (show List.length (([], []) : Header).1 = 0 from rfl)]
  constructor
  · refine safe_bind h1 ?_
    rintro ⟨s, n⟩ hs
    have e1 := h3 s n hs
    simp only
    rw [eraseFirst_drop (by omega), Res.ok_bind, e1, ← h4]
    refine safe_bind g1 ?_
    rintro ⟨s', n'⟩ hs'
    have e2 := g3 s' n' hs'
    simp only
    rw [eraseFirst_drop (by omega)]
    trivial
  · intro e n h
    obtain ⟨⟨s, m⟩, hs, h⟩ := Res.bind_eq_ok.1 h
    have e1 := h3 s m hs
    simp only at h
    rw [eraseFirst_drop (by omega), Res.ok_bind, e1, ← h4] at h
    obtain ⟨⟨s', m'⟩, hs', h⟩ := Res.bind_eq_ok.1 h
    have e2 := g3 s' m' hs'
    simp only at h
    rw [eraseFirst_drop (by omega)] at h
    have := (Prod.mk.inj (Res.ok.inj h)).2
    omega

theorem prefixClass_literal {b n : Nat} (hb : 64 ≤ b ∧ b < 128 ∧ n = 6 ∨ b < 32 ∧ n = 4) :
    prefixClass b ≠ .sizeUpdate ∧ prefixClass b ≠ .indexed ∧
      ∀ v, decodeIndex v (prefixClass b) = decodeIntWithLength n v := by
  unfold prefixClass
  rcases hb with ⟨h1, h2, rfl⟩ | ⟨h1, rfl⟩
  · rw [if_neg (by omega), if_pos h1]
    exact ⟨by decide, by decide, fun _ => rfl⟩
  · rw [if_neg (by omega), if_neg (by omega), if_neg (by omega)]
    split
    · exact ⟨by decide, by decide, fun _ => rfl⟩
    · exact ⟨by decide, by decide, fun _ => rfl⟩

/-- A complete representation: safe, and the code's count is its length. -/
theorem decodeHeader_span [P : Platform] (hP : P.strictIndex = false) {bs rest : Bytes}
    {table : DynamicTable} (ht : NamedTable table) (h : ItemSpan clientInt bs rest) :
    (decodeHeader bs table).Safe ∧ rest.length < bs.length ∧
      (∀ e n, decodeHeader bs table = .ok (e, n) → n = bs.length - rest.length) ∧
      rest = bs.drop (bs.length - rest.length) := by
  cases h with
  | indexed b bs rest i hb hi =>
      obtain ⟨h1, h2, h3⟩ := decodeIntWithLength_clientInt (by omega) hi
      have hc : prefixClass b.toNat = .indexed := by unfold prefixClass; rw [if_pos hb]
      unfold decodeHeader
      simp only [front, Res.ok_bind, checkPrefix_eq]
      rw [hc, if_neg (by decide)]
      simp only [decodeIndex, h1, Res.ok_bind]
      simp only [if_true]
      refine ⟨?_, h2, ?_, h3⟩
      · split
        · exact safe_bind (makeIndexedHeader_safe i table) (fun _ _ => trivial)
        · trivial
      · intro e n h
        split at h
        · obtain ⟨g, -, h⟩ := Res.bind_eq_ok.1 h
          exact (Prod.mk.inj (Res.ok.inj h)).2.symm
        · exact (Prod.mk.inj (Res.ok.inj h)).2.symm
  | sizeUpdate b bs rest n hb hi =>
      obtain ⟨h1, h2, h3⟩ := decodeIntWithLength_clientInt (by omega) hi
      have hc : prefixClass b.toNat = .sizeUpdate := by
        unfold prefixClass; rw [if_neg (by omega), if_neg (by omega), if_pos hb.1]
      unfold decodeHeader
      simp only [front, Res.ok_bind, checkPrefix_eq]
      rw [hc, if_pos rfl]
      simp only [decodeMaxSize, h1, Res.ok_bind]
      exact ⟨trivial, h2, fun e n h => (Prod.mk.inj (Res.ok.inj h)).2.symm, h3⟩
  | indexedName b bs rest1 rest n i hb hi h0 hv =>
      have hn : n ≤ 8 := by rcases hb with h | h <;> omega
      obtain ⟨h1, h2, h3⟩ := decodeIntWithLength_clientInt hn hi
      obtain ⟨c1, c2, c3⟩ := prefixClass_literal hb
      obtain ⟨-, s2, -, s4⟩ := decodeHeaderString_span hP hv
      unfold decodeHeader
      simp only [front, Res.ok_bind, checkPrefix_eq]
      rw [if_neg c1, c3, h1, Res.ok_bind]
      simp only
      rw [if_pos (by omega)]
      refine ⟨safe_bind (makeIndexedHeader_safe i table) ?_, by omega, ?_, ?_⟩
      · intro g hg
        rw [if_neg c2]
        exact (decodeLiteral_indexed hP _ (makeIndexedHeader_named ht hg) h2 h3 hv).1
      · intro e m h
        obtain ⟨g, hg, h⟩ := Res.bind_eq_ok.1 h
        rw [if_neg c2] at h
        exact (decodeLiteral_indexed hP _ (makeIndexedHeader_named ht hg) h2 h3 hv).2 e m h
      · have : (b :: bs).length - rest.length =
            ((b :: bs).length - rest1.length) + (rest1.length - rest.length) := by omega
        rw [this, ← List.drop_drop, ← h3]
        exact s4
  | newName b bs rest1 rest2 rest n hb hi hnm hv =>
      have hn : n ≤ 8 := by rcases hb with h | h <;> omega
      obtain ⟨h1, h2, h3⟩ := decodeIntWithLength_clientInt hn hi
      obtain ⟨c1, c2, c3⟩ := prefixClass_literal hb
      obtain ⟨-, n2, -, n4⟩ := decodeHeaderString_span hP hnm
      obtain ⟨-, s2, -, s4⟩ := decodeHeaderString_span hP hv
      unfold decodeHeader
      simp only [front, Res.ok_bind, checkPrefix_eq]
      rw [if_neg c1, c3, h1, Res.ok_bind]
      simp only
      rw [if_neg (by omega), if_neg c2]
      refine ⟨(decodeLiteral_new hP _ h2 h3 hnm hv).1, by omega,
        (decodeLiteral_new hP _ h2 h3 hnm hv).2, ?_⟩
      have : (b :: bs).length - rest.length =
            ((b :: bs).length - rest1.length) + ((rest1.length - rest2.length) + (rest2.length - rest.length)) := by
          omega
      rw [this, ← List.drop_drop, ← h3, ← List.drop_drop, ← n4]
      exact s4

theorem StringSpan.client {bs rest : Bytes} (h : StringSpan intDecodeMinimal bs rest) :
    StringSpan clientInt bs rest := by
  cases h with | mk data _ hi => exact .mk _ data _ (clientInt_of_minimal (by omega) hi)

theorem ItemSpan.client {bs rest : Bytes} (h : ItemSpan intDecodeMinimal bs rest) :
    ItemSpan clientInt bs rest := by
  cases h with
  | indexed b bs rest i hb hi => exact .indexed b bs rest i hb (clientInt_of_minimal (by omega) hi)
  | sizeUpdate b bs rest n hb hi =>
      exact .sizeUpdate b bs rest n hb (clientInt_of_minimal (by omega) hi)
  | indexedName b bs rest1 rest n i hb hi h0 hv =>
      exact .indexedName b bs rest1 rest n i hb
        (clientInt_of_minimal (by rcases hb with h | h <;> omega) hi) h0 (StringSpan.client hv)
  | newName b bs rest1 rest2 rest n hb hi hnm hv =>
      exact .newName b bs rest1 rest2 rest n hb
        (clientInt_of_minimal (by rcases hb with h | h <;> omega) hi) (StringSpan.client hnm)
        (StringSpan.client hv)

theorem decodeHeaderBlock_span [P : Platform] (hP : P.strictIndex = false) {bs : Bytes}
    {table : DynamicTable} (ht : NamedTable table) (h : BlockSpan intDecodeMinimal bs) :
    (decodeHeaderBlock bs table).Safe := by
  induction h with
  | nil => rw [decodeHeaderBlock]; trivial
  | cons bs rest hi _ ih =>
      obtain ⟨h1, h2, h3, h4⟩ := decodeHeader_span hP ht (ItemSpan.client hi)
      rw [decodeHeaderBlock_eq (by rintro rfl; simp at h2)]
      refine safe_bind h1 ?_
      rintro ⟨e, n⟩ hd
      have := h3 e n hd
      simp only
      rw [this, ← h4]
      exact safe_bind ih (fun _ _ => trivial)

/-- The start of an entry that was decoded. -/
theorem decodeHeader_cut [Platform] {v : Bytes} {table : DynamicTable} {e : HeaderEntry} {n : Nat}
    (h : decodeHeader v table = .ok (e, n)) {k : Nat} (hk : k < n) :
    (decodeHeader (v.take k) table).IsUb := by
  have hp := decodeHeader_part (v.take k) (v.drop k) table
  rw [List.take_append_drop] at hp
  rcases hp with hp | hp
  · rw [h] at hp
    have hb := decodeHeader_bounds hp
    rw [List.length_take] at hb
    omega
  · exact hp

end Mh2c
