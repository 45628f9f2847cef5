/-
Helper lemmas: what the header encoder writes.
-/
import Verif.Proofs.HeaderCodec

namespace Mh2c

open Rfc

/-- Bits of the index of a representation. -/
def nbits : HeaderPrefix → Nat
  | .indexed => 7
  | .incrementalIndexing => 6
  | .withoutIndexing => 4
  | .neverIndexed => 4
  | .sizeUpdate => 5

theorem nbits_le (p : HeaderPrefix) : nbits p ≤ 8 := by cases p <;> decide

theorem value_mod (p : HeaderPrefix) : p.value.toNat % 2 ^ nbits p = 0 := by cases p <;> decide

theorem encodeIndex_eq {p : HeaderPrefix} (hp : p ≠ .sizeUpdate) (i : Nat) :
    encodeIndex i p = .ok (intEnc (nbits p) i p.value) := by
  cases p <;> first | exact absurd rfl hp | exact orFirst_int _ _ _

theorem encodeMaxSize_eq (n : Nat) :
    encodeMaxSize n .sizeUpdate = .ok (intEnc 5 n HeaderPrefix.sizeUpdate.value) :=
  orFirst_int _ _ _

/-! ### Table hits -/

theorem findIndex_some {h : Header} {es : List Header} {i : Nat} (hf : findIndex h es = some i) :
    es[i]? = some h := by
  induction es generalizing i with
  | nil => simp [findIndex] at hf
  | cons e es ih =>
      rw [findIndex] at hf
      split at hf
      · rename_i he
        obtain rfl := Option.some.inj hf
        simp [he]
      · obtain ⟨j, hj, rfl⟩ := Option.map_eq_some_iff.1 hf
        simpa using ih hj

theorem findIndex_first {h : Header} {es : List Header} {i j : Nat} (hf : findIndex h es = some i)
    (hj : j < i) : es[j]? ≠ some h := by
  induction es generalizing i j with
  | nil => simp [findIndex] at hf
  | cons e es ih =>
      rw [findIndex] at hf
      split at hf
      · have := Option.some.inj hf; omega
      · rename_i he
        obtain ⟨k, hk, rfl⟩ := Option.map_eq_some_iff.1 hf
        cases j with
        | zero => simpa using he
        | succ j => simpa using ih hk (by omega)

theorem findIndex_none {h : Header} {es : List Header} : findIndex h es = none ↔ h ∉ es := by
  induction es with
  | nil => simp [findIndex]
  | cons e es ih =>
      rw [findIndex]
      by_cases he : e = h
      · simp [he]
      · rw [if_neg he, Option.map_eq_none_iff, ih, List.mem_cons, not_or]
        exact ⟨fun hn => ⟨fun hc => he hc.symm, hn⟩, fun hn => hn.2⟩

/-- Index under which the encoder sends a header, if it finds it. -/
def hitIndex (h : Header) (table : DynamicTable) : Option Nat :=
  match reverseStaticTableEntries.lookup h with
  | some idx =>
      if h.2.length > 0 then some idx else (findIndex h table.entries).map (62 + ·)
  | none => (findIndex h table.entries).map (62 + ·)

theorem hitIndex_none {h : Header} {table : DynamicTable} :
    hitIndex h table = none ↔ ¬ InTables h table := by
  unfold hitIndex InTables
  cases hr : reverseStaticTableEntries.lookup h with
  | none =>
      simp only [Option.map_eq_none_iff, findIndex_none, not_or]
      constructor
      · intro hn
        refine ⟨?_, hn⟩
        rintro ⟨-, i, hi⟩
        rw [← staticTable_inverse, hr] at hi
        cases hi
      · exact fun hn => hn.2
  | some idx =>
      simp only
      by_cases hv : h.2.length > 0
      · rw [if_pos hv]
        simp only [reduceCtorEq, false_iff, not_not]
        exact Or.inl ⟨List.length_pos_iff.1 hv, idx, (staticTable_inverse h idx).1 hr⟩
      · rw [if_neg hv]
        simp only [Option.map_eq_none_iff, findIndex_none, not_or]
        exact ⟨fun hn => ⟨fun hc => hc.1 (List.length_eq_zero_iff.1 (by omega)), hn⟩, fun hn => hn.2⟩

theorem hitIndex_some {h : Header} {table : DynamicTable} {i : Nat} (hi : hitIndex h table = some i) :
    (1 ≤ i ∧ i ≤ 61 ∧ h.2 ≠ [] ∧ staticTableEntries.lookup i = some h) ∨
    (62 ≤ i ∧ table.entries[i - 62]? = some h ∧
      ¬ (h.2 ≠ [] ∧ ∃ i, staticTableEntries.lookup i = some h)) := by
  unfold hitIndex at hi
  cases hr : reverseStaticTableEntries.lookup h with
  | none =>
      rw [hr] at hi
      simp only at hi
      obtain ⟨j, hj, rfl⟩ := Option.map_eq_some_iff.1 hi
      right
      refine ⟨by omega, by rw [Nat.add_sub_cancel_left]; exact findIndex_some hj, ?_⟩
      rintro ⟨-, k, hk⟩
      rw [← staticTable_inverse, hr] at hk
      cases hk
  | some idx =>
      rw [hr] at hi
      simp only at hi
      split at hi
      · rename_i hv
        obtain rfl := Option.some.inj hi
        have hs := (staticTable_inverse h idx).1 hr
        have hb := (staticTable_isSome idx).1 (by rw [hs]; rfl)
        exact Or.inl ⟨hb.1, hb.2, List.length_pos_iff.1 hv, hs⟩
      · rename_i hv
        obtain ⟨j, hj, rfl⟩ := Option.map_eq_some_iff.1 hi
        right
        refine ⟨by omega, by rw [Nat.add_sub_cancel_left]; exact findIndex_some hj, ?_⟩
        rintro ⟨hne, -⟩
        exact hne (List.length_eq_zero_iff.1 (by omega))

theorem makeIndexedHeader_static {i : Nat} {table : DynamicTable} {h : Header}
    (hs : staticTableEntries.lookup i = some h) : makeIndexedHeader i table = .ok h := by
  have hb := (staticTable_isSome i).1 (by rw [hs]; rfl)
  unfold makeIndexedHeader staticTableAt
  rw [staticTable_length, if_neg (by omega), hs]

theorem makeIndexedHeader_dynamic {i : Nat} {table : DynamicTable} {h : Header} (h62 : 62 ≤ i)
    (hd : table.entries[i - 62]? = some h) : makeIndexedHeader i table = .ok h := by
  unfold makeIndexedHeader DynamicTable.atPos
  rw [staticTable_length, if_pos (by omega), Nat.sub_sub]
  rw [hd]

theorem makeIndexedHeader_hit {h : Header} {table : DynamicTable} {i : Nat}
    (hi : hitIndex h table = some i) : 0 < i ∧ makeIndexedHeader i table = .ok h := by
  rcases hitIndex_some hi with ⟨h1, h2, h3, h4⟩ | ⟨h1, h2, -⟩
  · exact ⟨by omega, makeIndexedHeader_static h4⟩
  · exact ⟨by omega, makeIndexedHeader_dynamic h1 h2⟩

theorem encodeHeader_size (n : Nat) (mode : EncodeMode) (table : DynamicTable) :
    encodeHeader ⟨.sizeUpdate, .maxSize n⟩ mode table =
      .ok (intEnc 5 n HeaderPrefix.sizeUpdate.value) := by
  unfold encodeHeader
  rw [if_pos rfl]
  exact encodeMaxSize_eq n

theorem encodeHeader_header {p : HeaderPrefix} (hp : p ≠ .sizeUpdate) (h : Header)
    (mode : EncodeMode) (table : DynamicTable) :
    encodeHeader ⟨p, .header h⟩ mode table =
      match hitIndex h table with
      | some i => .ok (intEnc 7 i HeaderPrefix.indexed.value)
      | none => encodeLiteral p h mode := by
  have hdyn : encodeDynamicOrLiteral p h mode table =
      match (findIndex h table.entries).map (62 + ·) with
      | some i => .ok (intEnc 7 i HeaderPrefix.indexed.value)
      | none => encodeLiteral p h mode := by
    unfold encodeDynamicOrLiteral
    cases hf : findIndex h table.entries with
    | none => rfl
    | some i =>
        simp only [Option.map_some]
        rw [staticTable_length, encodeIndex_eq (by decide)]
        rfl
  unfold encodeHeader hitIndex
  rw [if_neg hp]
  simp only [HeaderEntry.getHeader, Res.ok_bind]
  cases hr : reverseStaticTableEntries.lookup h with
  | none => exact hdyn
  | some idx =>
      simp only
      split
      · exact encodeIndex_eq (by decide) idx
      · exact hdyn

/-! ### Items -/

/-- The representation of a literal with the given prefix. -/
def literalItem : HeaderPrefix → Field → Item
  | .incrementalIndexing, f => .incremental f
  | .neverIndexed, f => .neverIndexed f
  | _, f => .withoutIndexing f

/-- A reader that understands the encoder's integers `v` with `B n v`. -/
def Understands (int : IntReader) (B : Nat → Nat → Prop) : Prop :=
  ∀ n v hi rest, n ≤ 8 → hi.toNat % 2 ^ n = 0 → B n v →
    int n (intEnc n v hi ++ rest) = some (v, rest)

theorem understands_rfc : Understands intDecode fun _ _ => True :=
  fun _ v _ rest hn hhi _ => intDecode_intEnc hn v hhi rest

theorem understands_client : Understands clientInt fun n v => v < 2 ^ n - 1 + 2 ^ 31 :=
  fun _ _ _ rest hn hhi hv => clientInt_intEnc hn hv hhi rest

theorem item_size {int : IntReader} {B : Nat → Nat → Prop} (hint : Understands int B)
    (get getName : Nat → Option Field) {n : Nat} (hB : B 5 n) (rest : Bytes) :
    ItemAt int get getName (intEnc 5 n HeaderPrefix.sizeUpdate.value ++ rest) (.sizeUpdate n) rest := by
  have hm := value_mod .sizeUpdate
  have hi := hint 5 n HeaderPrefix.sizeUpdate.value rest (by omega) hm hB
  obtain ⟨b, bs, hc, hb⟩ := intEnc_cons (n := 5) (by omega) n hm
  rw [hc, List.cons_append] at hi ⊢
  refine .sizeUpdate b _ rest n ?_ hi
  rw [hb]
  show 32 ≤ 32 + _ ∧ 32 + _ < 64
  omega

theorem item_indexed {int : IntReader} {B : Nat → Nat → Prop} (hint : Understands int B)
    {get : Nat → Option Field} (getName : Nat → Option Field) {i : Nat} {f : Field} (hB : B 7 i)
    (hf : get i = some f) (rest : Bytes) :
    ItemAt int get getName (intEnc 7 i HeaderPrefix.indexed.value ++ rest) (.indexed f) rest := by
  have hm := value_mod .indexed
  have hi := hint 7 i HeaderPrefix.indexed.value rest (by omega) hm hB
  obtain ⟨b, bs, hc, hb⟩ := intEnc_cons (n := 7) (by omega) i hm
  rw [hc, List.cons_append] at hi ⊢
  refine .indexed b _ rest i f ?_ hi hf
  rw [hb]
  show 128 ≤ 128 + _
  omega

theorem encodeLiteral_at {int : IntReader} {B : Nat → Nat → Prop} (hint : Understands int B)
    {getName : Nat → Option Field} {p : HeaderPrefix} (hp : p ≠ .sizeUpdate) {h : Header}
    {mode : EncodeMode} (hB0 : ∀ i, i ≤ 61 → B (nbits p) i)
    (hB1 : B 7 (wireLength h.1 mode)) (hB2 : B 7 (wireLength h.2 mode))
    (hname : ∀ i, staticTableEntries.lookup i = some (h.1, []) → getName i = some (h.1, [])) :
    ∃ bytes i tail, encodeLiteral p h mode = .ok bytes ∧ i ≤ 61 ∧
      bytes = intEnc (nbits p) i p.value ++ tail ∧
      ∀ rest, LiteralAt int getName (nbits p) (bytes ++ rest) h rest := by
  obtain ⟨d2, v1, -, v3, v4⟩ := encodeHeaderValue_spec h.2 mode
  have hd2 := wireLength_of v3 v4
  have hm7 : mode.value.toNat % 2 ^ 7 = 0 := by cases mode <;> decide
  unfold encodeLiteral
  cases hr : reverseStaticTableEntries.lookup (h.1, []) with
  | some idx =>
      simp only
      have hs := (staticTable_inverse _ _).1 hr
      have hb := (staticTable_isSome idx).1 (by rw [hs]; rfl)
      rw [encodeIndex_eq hp, Res.ok_bind, v1, Res.ok_bind, Res.pure_eq]
      refine ⟨_, idx, _, rfl, hb.2, rfl, ?_⟩
      intro rest
      rw [List.append_assoc]
      have hi := hint (nbits p) idx p.value (intEnc 7 d2.length mode.value ++ d2 ++ rest)
        (nbits_le p) (value_mod p) (hB0 idx hb.2)
      have hst := stringAt_of (int := int) v3 v4 rest
        (hint 7 _ _ _ (by omega) hm7 (by rw [hd2]; exact hB2))
      exact .indexedName _ _ rest idx (h.1, []) h.2 hi (hname idx hs) hst
  | none =>
      simp only
      obtain ⟨d1, -, n2, n3, n4⟩ := encodeHeaderValue_spec h.1 mode
      have hd1 := wireLength_of n3 n4
      rw [encodeIndex_eq hp, Res.ok_bind, n2, Res.ok_bind, v1, Res.ok_bind, Res.pure_eq]
      refine ⟨_, 0, _, rfl, by omega, List.append_assoc _ _ _, ?_⟩
      intro rest
      have hi := hint (nbits p) 0 p.value
        ((intEnc 7 d1.length mode.value ++ d1) ++ ((intEnc 7 d2.length mode.value ++ d2) ++ rest))
        (nbits_le p) (value_mod p) (hB0 0 (by omega))
      have hst2 := stringAt_of (int := int) v3 v4 rest
        (hint 7 _ _ _ (by omega) hm7 (by rw [hd2]; exact hB2))
      have hst1 := stringAt_of (int := int) n3 n4 ((intEnc 7 d2.length mode.value ++ d2) ++ rest)
        (hint 7 _ _ _ (by omega) hm7 (by rw [hd1]; exact hB1))
      have := LiteralAt.newName (get := getName) _ _ _ rest h.1 h.2 hi hst1 hst2
      simpa [List.append_assoc] using this

theorem item_literal {int : IntReader} {B : Nat → Nat → Prop} (hint : Understands int B)
    (get : Nat → Option Field) {getName : Nat → Option Field} {p : HeaderPrefix} (hp : IsLiteral p)
    {h : Header} {mode : EncodeMode} (hB0 : ∀ i, i ≤ 61 → B (nbits p) i)
    (hB1 : B 7 (wireLength h.1 mode)) (hB2 : B 7 (wireLength h.2 mode))
    (hname : ∀ i, staticTableEntries.lookup i = some (h.1, []) → getName i = some (h.1, [])) :
    ∃ bytes, encodeLiteral p h mode = .ok bytes ∧ bytes ≠ [] ∧
      ∀ rest, ItemAt int get getName (bytes ++ rest) (literalItem p h) rest := by
  obtain ⟨bytes, i, tail, h1, h2, h3, h4⟩ := encodeLiteral_at hint
    (p := p) (by rcases hp with rfl | rfl | rfl <;> decide) hB0 hB1 hB2 hname
  obtain ⟨b, bs, hc, hb⟩ := intEnc_cons (nbits_le p) i (value_mod p)
  have hbytes : bytes = b :: (bs ++ tail) := by rw [h3, hc]; rfl
  refine ⟨bytes, h1, by rw [hbytes]; simp, ?_⟩
  intro rest
  have hl := h4 rest
  rw [hbytes, List.cons_append] at hl ⊢
  rcases hp with rfl | rfl | rfl
  · refine .incremental b _ rest h ?_ hl
    rw [hb]
    show 64 ≤ 64 + min i (2 ^ 6 - 1) ∧ 64 + min i (2 ^ 6 - 1) < 128
    omega
  · refine .withoutIndexing b _ rest h ?_ hl
    rw [hb]
    show 0 + min i (2 ^ 4 - 1) < 16
    omega
  · refine .neverIndexed b _ rest h ?_ hl
    rw [hb]
    show 16 ≤ 16 + min i (2 ^ 4 - 1) ∧ 16 + min i (2 ^ 4 - 1) < 32
    omega

/-! ### The client's own getters -/

/-- The field the client's tables give for an index. -/
def codeGet (table : DynamicTable) (i : Nat) : Option Field :=
  if i = 0 then none else
  match makeIndexedHeader i table with
  | .ok f => some f
  | _ => none

/-- The same for names: the client treats an empty name as absent. -/
def codeGetName (table : DynamicTable) (i : Nat) : Option Field :=
  match codeGet table i with
  | some f => if f.1 = [] then none else some f
  | none => none

theorem codeGet_some {table : DynamicTable} {i : Nat} {f : Field} :
    codeGet table i = some f ↔ 0 < i ∧ makeIndexedHeader i table = .ok f := by
  unfold codeGet
  split
  · rename_i h0; simp [h0]
  · rename_i h0
    constructor
    · intro h
      cases hm : makeIndexedHeader i table with
      | ok g => rw [hm] at h; exact ⟨by omega, by rw [Option.some.inj h]⟩
      | throw e => rw [hm] at h; cases h
      | ub k => rw [hm] at h; cases h
      | diverge => rw [hm] at h; cases h
    · rintro ⟨-, h⟩; rw [h]

theorem codeGetName_some {table : DynamicTable} {i : Nat} {f : Field} :
    codeGetName table i = some f ↔ 0 < i ∧ makeIndexedHeader i table = .ok f ∧ f.1 ≠ [] := by
  unfold codeGetName
  cases hg : codeGet table i with
  | none =>
      simp only [reduceCtorEq, false_iff]
      rintro ⟨h1, h2, -⟩
      rw [codeGet_some.2 ⟨h1, h2⟩] at hg
      cases hg
  | some g =>
      obtain ⟨h1, h2⟩ := codeGet_some.1 hg
      simp only
      split
      · rename_i he
        simp only [reduceCtorEq, false_iff]
        rintro ⟨-, h3, h4⟩
        rw [h2] at h3
        exact h4 (by rw [← Res.ok.inj h3]; exact he)
      · rename_i he
        constructor
        · intro h
          obtain rfl := Option.some.inj h
          exact ⟨h1, h2, he⟩
        · rintro ⟨-, h3, -⟩
          rw [h2] at h3
          rw [Res.ok.inj h3]

theorem staticName_nonempty {i : Nat} {h : Header} (hs : staticTableEntries.lookup i = some h) :
    h.1 ≠ [] := by
  have hall : staticTableEntries.all (fun e => !e.2.1.isEmpty) = true := by decide +kernel
  have := List.all_eq_true.1 hall _ (lookup_mem hs)
  intro hc
  simp [hc] at this

theorem codeGetName_static (table : DynamicTable) (i : Nat) (h : Header)
    (hs : staticTableEntries.lookup i = some h) : codeGetName table i = some h := by
  have hb := (staticTable_isSome i).1 (by rw [hs]; rfl)
  exact codeGetName_some.2 ⟨by omega, makeIndexedHeader_static hs, staticName_nonempty hs⟩

/-- Decoding what any encoder wrote in the client's dialect. -/
theorem decodeHeader_item [P : Platform] {table : DynamicTable} {bs rest : Bytes} {item : Item}
    (h : ItemAt clientInt (codeGet table) (codeGetName table) bs item rest)
    (ht : ItemTolerant item) :
    decodeHeader bs table = .ok (entryOf item, bs.length - rest.length) ∧
      rest.length < bs.length ∧ rest = bs.drop (bs.length - rest.length) :=
  decodeHeader_of (fun _ _ h => codeGet_some.1 h) (fun _ _ h => codeGetName_some.1 h) h ht

end Mh2c
