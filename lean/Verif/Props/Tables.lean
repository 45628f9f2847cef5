/-
C16-C22: the static and dynamic tables.
-/
import Verif.Proofs.Tables

namespace Mh2c

open Rfc

/-! ## C16 -/

/-- C16. The two static tables are inverse to each other. -/
theorem C16_inverse (h : Header) (i : Nat) :
    reverseStaticTableEntries.lookup h = some i ↔ staticTableEntries.lookup i = some h :=
  staticTable_inverse h i

/-- C16. The indices are exactly 1..61. -/
theorem C16_indices (i : Nat) : (∃ h, staticTableEntries.lookup i = some h) ↔ 1 ≤ i ∧ i ≤ 61 := by
  rw [← staticTable_isSome, Option.isSome_iff_exists]

example : reverseStaticTableEntries.lookup (bstr ":method", bstr "POST") = some 3 := by
  decide +kernel

/-! ## C17 -/

/-- C17 except for index 20. Missing: index 20, where the name is mistyped (false of the code). -/
theorem C17_appendix_a_partial (i : Nat) (h1 : 1 ≤ i) (h61 : i ≤ 61) (h20 : i ≠ 20) :
    ∃ f, staticTableEntries.lookup i = some f ∧ staticTable[i - 1]? = some f := by
  obtain ⟨f, hf⟩ := Option.isSome_iff_exists.1 ((staticTable_isSome i).2 ⟨h1, h61⟩)
  exact ⟨f, hf, by rw [← staticTable_eq_rfc h1 h61 h20]; exact hf⟩

/-- C17 is false at index 20. -/
theorem C17_appendix_a_violated :
    staticTableEntries.lookup 20 = some (bstr "accept-control-allow-origin", []) ∧
    staticTable[20 - 1]? = some (ascii "access-control-allow-origin", []) ∧
    staticTableEntries.lookup 20 ≠ staticTable[20 - 1]? := by decide +kernel

example : staticTable.length = 61 ∧ staticTable[61 - 1]? = some (ascii "www-authenticate", []) := by
  decide +kernel

/-! ## C18-C21: histories -/

theorem Admissible.head {max : Nat} {ops : List TableOp} (h : Admissible max ops) : max < 2 ^ 63 := by
  cases ops with
  | nil => exact h
  | cons op ops => cases op <;> exact h.1

theorem runOps_refines (ops : List TableOp) (t : DynamicTable) (ht : t.Inv)
    (ha : Admissible t.maxTableSize ops) :
    ∃ t', runOps ops t = .ok t' ∧ t'.Inv ∧ t'.toRfc = rfcOps ops t.toRfc := by
  induction ops generalizing t with
  | nil => exact ⟨t, rfl, ht, rfl⟩
  | cons op ops ih =>
      cases op with
      | push h =>
          obtain ⟨t1, h1, h2, h3⟩ := DynamicTable.push_refines ht ha.2.1
          have hm : t1.maxTableSize = t.maxTableSize := congrArg Table.max h3
          obtain ⟨t', g1, g2, g3⟩ := ih t1 h2 (by rw [hm]; exact ha.2.2)
          refine ⟨t', ?_, g2, ?_⟩
          · rw [runOps, h1]; exact g1
          · rw [g3, h3]; rfl
      | setMax n =>
          obtain ⟨t1, h1, h2, h3⟩ := DynamicTable.updateTableSize_refines ht ha.2.head
          have hm : t1.maxTableSize = n := congrArg Table.max h3
          obtain ⟨t', g1, g2, g3⟩ := ih t1 h2 (by rw [hm]; exact ha.2)
          refine ⟨t', ?_, g2, ?_⟩
          · rw [runOps, h1]; exact g1
          · rw [g3, h3]; rfl

theorem rfcOps_entries (ops : List TableOp) (t : Table) (base : List Header)
    (h : t.entries <+: base) : (rfcOps ops t).entries <+: pushed ops ++ base := by
  induction ops generalizing t base with
  | nil => simpa [rfcOps, pushed] using h
  | cons op ops ih =>
      cases op with
      | push f =>
          have := ih (t.insert f) (f :: base)
            ((DynamicTable.takeFit_prefix _ _).trans (List.cons_prefix_cons.2 ⟨rfl, h⟩))
          simpa [rfcOps, pushed] using this
      | setMax n =>
          have := ih (t.setMax n) base ((DynamicTable.takeFit_prefix _ _).trans h)
          simpa [rfcOps, pushed] using this

/-- C18. After every admissible history the recorded size is the sum of the entry sizes and does
not exceed the maximum, which is the last one set. -/
theorem C18_size_accounting (initial : Nat) (ops : List TableOp) (ha : Admissible initial ops) :
    ∃ t, runOps ops (DynamicTable.new initial) = .ok t ∧
      t.tableSize = (t.entries.map fun h => h.1.length + h.2.length + 32).sum ∧
      t.tableSize ≤ t.maxTableSize ∧
      t.maxTableSize =
        ops.foldl (fun m op => match op with | .push _ => m | .setMax n => n) initial := by
  obtain ⟨t, h1, h2, h3⟩ := runOps_refines ops _ (DynamicTable.inv_new ha.head) ha
  refine ⟨t, h1, h2.size, h2.le, ?_⟩
  have hm : t.maxTableSize = (rfcOps ops (DynamicTable.new initial).toRfc).max :=
    congrArg Table.max h3
  rw [hm]
  have : ∀ (ops : List TableOp) (s : Table), (rfcOps ops s).max =
      ops.foldl (fun m op => match op with | .push _ => m | .setMax n => n) s.max := by
    intro ops
    induction ops with
    | nil => intro s; rfl
    | cons op ops ih =>
        intro s
        cases op with
        | push f => rw [rfcOps, ih]; rfl
        | setMax n => rw [rfcOps, ih]; rfl
  exact this ops _

/-- C19. After every admissible history the entries are those of the RFC 7541 section 4 table. -/
theorem C19_rfc_table (initial : Nat) (ops : List TableOp) (ha : Admissible initial ops) :
    ∃ t, runOps ops (DynamicTable.new initial) = .ok t ∧
      t.entries = (rfcOps ops ⟨[], initial⟩).entries ∧
      t.maxTableSize = (rfcOps ops ⟨[], initial⟩).max := by
  obtain ⟨t, h1, -, h3⟩ := runOps_refines ops _ (DynamicTable.inv_new ha.head) ha
  exact ⟨t, h1, congrArg Table.entries h3, congrArg Table.max h3⟩

/-- C19. What the specification's eviction means: the longest run of newest entries that fits. -/
theorem C19_longest_run (budget : Nat) (es : List Header) :
    takeFit budget es <+: es ∧
    ((takeFit budget es).map fun h => h.1.length + h.2.length + 32).sum ≤ budget ∧
    ∀ p, p <+: es → (p.map fun h => h.1.length + h.2.length + 32).sum ≤ budget →
      p <+: takeFit budget es :=
  ⟨DynamicTable.takeFit_prefix _ _, DynamicTable.takeFit_total _ _,
    fun _ h1 h2 => DynamicTable.takeFit_longest h1 h2⟩

/-- A history with eviction by a push and by a size change. -/
def sampleOps : List TableOp :=
  [.push (bstr "a", bstr "1"), .push (bstr "b", bstr "2"), .push (bstr "c", bstr "3"),
   .setMax 40, .setMax 4096, .push (bstr "d", bstr "4")]

example : Admissible 70 sampleOps := by decide
example : runOps sampleOps (DynamicTable.new 70) =
    .ok ⟨[(bstr "d", bstr "4"), (bstr "c", bstr "3")], 68, 4096⟩ := by decide +kernel

/-! ## C20 -/

/-- C20 is false of the code: pushing any header larger than the maximum, onto any table reached by
an admissible history, is undefined behaviour, where RFC 7541 4.4 asks for an empty table.
(The bound says that the sizes added up fit `size_t`.) -/
theorem C20_oversized_push_violated (initial : Nat) (ops : List TableOp)
    (ha : Admissible initial ops) (t : DynamicTable)
    (ht : runOps ops (DynamicTable.new initial) = .ok t) (h : Header)
    (hbig : t.maxTableSize < h.1.length + h.2.length + 32)
    (h64 : t.tableSize + (h.1.length + h.2.length + 32) < 2 ^ 64) :
    t.push h = .ub .emptyBack ∧ (t.toRfc.insert h).entries = [] := by
  obtain ⟨t', h1, h2, -⟩ := runOps_refines ops _ (DynamicTable.inv_new ha.head) ha
  rw [ht] at h1
  obtain rfl := Res.ok.inj h1
  refine ⟨DynamicTable.push_oversized h2.size h64 hbig, ?_⟩
  show takeFit t.maxTableSize (h :: t.entries) = []
  rw [takeFit, if_neg]
  unfold entrySize
  omega

/-- C20, the part that holds: a push is defined exactly for the headers that fit.
Missing: what RFC 7541 4.4 prescribes for the others (false, see above). -/
theorem C20_defined_iff_fits_partial (initial : Nat) (ops : List TableOp)
    (ha : Admissible initial ops) (t : DynamicTable)
    (ht : runOps ops (DynamicTable.new initial) = .ok t) (h : Header)
    (h64 : t.tableSize + (h.1.length + h.2.length + 32) < 2 ^ 64) :
    (∃ t', t.push h = .ok t') ↔ h.1.length + h.2.length + 32 ≤ t.maxTableSize := by
  constructor
  · rintro ⟨t', hp⟩
    by_contra hc
    have := (C20_oversized_push_violated initial ops ha t ht h (by omega) h64).1
    rw [hp] at this
    cases this
  · intro hf
    obtain ⟨t', h1, h2, -⟩ := runOps_refines ops _ (DynamicTable.inv_new ha.head) ha
    rw [ht] at h1
    obtain rfl := Res.ok.inj h1
    obtain ⟨t', h1, -⟩ := DynamicTable.push_refines h2 hf
    exact ⟨t', h1⟩

example : (DynamicTable.new 34).push (bstr "ab", bstr "1") = .ub .emptyBack ∧
    (DynamicTable.new 34).push (bstr "a", bstr "1") =
      .ok ⟨[(bstr "a", bstr "1")], 34, 34⟩ := by decide +kernel

/-! ## C21 -/

/-- C21. After every admissible history the entries are the most recently pushed headers, newest
first; `at(i)` returns the `i`-th of them and throws `out_of_range` beyond; the wire index `62 + i`
denotes the same entry. -/
theorem C21_positional_access (initial : Nat) (ops : List TableOp) (ha : Admissible initial ops) :
    ∃ t, runOps ops (DynamicTable.new initial) = .ok t ∧ t.entries <+: pushed ops ∧
      (∀ i, (hi : i < t.entries.length) →
        ∃ h, (pushed ops)[i]? = some h ∧ t.atPos i = .ok h) ∧
      (∀ i, t.entries.length ≤ i → t.atPos i = .throw .outOfRange) ∧
      (∀ i, makeIndexedHeader (62 + i) t = t.atPos i) := by
  obtain ⟨t, h1, -, h3⟩ := runOps_refines ops _ (DynamicTable.inv_new ha.head) ha
  have hp : t.entries <+: pushed ops := by
    have := rfcOps_entries ops (DynamicTable.new initial).toRfc [] (List.prefix_refl _)
    rw [List.append_nil] at this
    have he : t.entries = _ := congrArg Table.entries h3
    rw [he]
    exact this
  refine ⟨t, h1, hp, ?_, ?_, ?_⟩
  · intro i hi
    refine ⟨t.entries[i], ?_, ?_⟩
    · obtain ⟨s, hs⟩ := hp
      rw [← hs, List.getElem?_append_left hi, List.getElem?_eq_getElem hi]
    · unfold DynamicTable.atPos
      rw [List.getElem?_eq_getElem hi]
  · intro i hi
    unfold DynamicTable.atPos
    rw [List.getElem?_eq_none hi]
  · intro i
    unfold makeIndexedHeader
    rw [staticTable_length, if_pos (by omega)]
    congr 1
    omega

example : makeIndexedHeader 63
    ⟨[(bstr "d", bstr "4"), (bstr "c", bstr "3")], 68, 4096⟩ = .ok (bstr "c", bstr "3") := by
  decide +kernel

/-! ## C22 -/

/-- C22. Changing the maximum of a table reached by an admissible history never fails; it sets the
maximum, keeps a prefix (the newest entries), keeps everything exactly if everything fits. -/
theorem C22_update_table_size (initial : Nat) (ops : List TableOp) (ha : Admissible initial ops)
    (t : DynamicTable) (ht : runOps ops (DynamicTable.new initial) = .ok t) (n : Nat) :
    ∃ t', t.updateTableSize n = .ok t' ∧ t'.maxTableSize = n ∧ t'.entries <+: t.entries ∧
      t'.tableSize = (t'.entries.map fun h => h.1.length + h.2.length + 32).sum ∧
      (t'.entries = t.entries ↔ t.tableSize ≤ n) ∧
      (t.maxTableSize ≤ n → t'.entries = t.entries) ∧
      (n = 0 → t'.entries = []) := by
  obtain ⟨s, h1, h2, -⟩ := runOps_refines ops _ (DynamicTable.inv_new ha.head) ha
  rw [ht] at h1
  obtain rfl := Res.ok.inj h1
  have hiff : takeFit n t.entries = t.entries ↔ t.tableSize ≤ n := by
    constructor
    · intro h
      have := DynamicTable.takeFit_total n t.entries
      rw [h] at this
      rw [h2.size]
      exact this
    · intro h
      exact DynamicTable.takeFit_all (by rw [← h2.size]; exact h)
  refine ⟨_, DynamicTable.updateTableSize_eq h2 n, rfl, DynamicTable.takeFit_prefix _ _, rfl,
    hiff, fun h => hiff.2 (le_trans h2.le h), ?_⟩
  rintro rfl
  show takeFit 0 t.entries = []
  cases t.entries with
  | nil => rfl
  | cons e es => rw [takeFit, if_neg]; unfold entrySize; omega

/-- C22. Setting the same maximum twice equals setting it once. -/
theorem C22_idempotent (initial : Nat) (ops : List TableOp) (ha : Admissible initial ops)
    (t : DynamicTable) (ht : runOps ops (DynamicTable.new initial) = .ok t) (n : Nat)
    (hn : n < 2 ^ 63) (t' : DynamicTable) (h' : t.updateTableSize n = .ok t') :
    t'.updateTableSize n = .ok t' := by
  obtain ⟨s, h1, h2, -⟩ := runOps_refines ops _ (DynamicTable.inv_new ha.head) ha
  rw [ht] at h1
  obtain rfl := Res.ok.inj h1
  have hi := DynamicTable.inv_updateTableSize h2 hn h'
  rw [DynamicTable.updateTableSize_eq hi]
  rw [DynamicTable.updateTableSize_eq h2] at h'
  obtain rfl := (Res.ok.inj h').symm
  simp only
  rw [DynamicTable.takeFit_all (DynamicTable.takeFit_total n t.entries)]

example : DynamicTable.updateTableSize ⟨[(bstr "d", bstr "4"), (bstr "c", bstr "3")], 68, 4096⟩ 67 =
    .ok ⟨[(bstr "d", bstr "4")], 34, 67⟩ := by decide +kernel

end Mh2c
