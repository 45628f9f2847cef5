/-
Helper lemmas about the static and dynamic tables.
-/
import Verif.Spec.Tables
import Mathlib.Data.List.Induction
import Verif.Model.HeaderDecoder
import Verif.Proofs.HuffmanTable
import Verif.Spec.Hpack

namespace Mh2c

open Rfc

/-! ### Static table -/

theorem staticTable_reverse :
    staticTableEntries.all (fun e => reverseStaticTableEntries.lookup e.2 == some e.1) = true := by
  decide +kernel

theorem reverseStaticTable_sound :
    reverseStaticTableEntries.all (fun e => staticTableEntries.lookup e.2 == some e.1) = true := by
  decide +kernel

theorem staticTable_keys : staticTableEntries.map Prod.fst = (List.range 61).map (· + 1) := by
  decide +kernel

@[simp] theorem staticTable_length : staticTableEntries.length = 61 := by decide +kernel

theorem staticTable_inverse (h : Header) (i : Nat) :
    reverseStaticTableEntries.lookup h = some i ↔ staticTableEntries.lookup i = some h := by
  constructor
  · intro hr
    exact eq_of_beq (List.all_eq_true.1 reverseStaticTable_sound _ (lookup_mem hr))
  · intro hs
    exact eq_of_beq (List.all_eq_true.1 staticTable_reverse _ (lookup_mem hs))

theorem lookup_isSome_iff {α β : Type} [BEq α] [LawfulBEq α] (l : List (α × β)) (a : α) :
    (l.lookup a).isSome ↔ a ∈ l.map Prod.fst := by
  induction l with
  | nil => simp
  | cons p rest ih =>
      obtain ⟨a', b'⟩ := p
      rw [List.lookup_cons]
      by_cases he : a == a'
      · simp [eq_of_beq he]
      · have hne : a ≠ a' := by rintro rfl; simp at he
        simp only [he]
        simp [ih, hne]

theorem staticTable_isSome (i : Nat) :
    (staticTableEntries.lookup i).isSome ↔ 1 ≤ i ∧ i ≤ 61 := by
  rw [lookup_isSome_iff, staticTable_keys, List.mem_map]
  constructor
  · rintro ⟨a, ha, rfl⟩
    have := List.mem_range.1 ha
    omega
  · rintro ⟨h1, h2⟩
    exact ⟨i - 1, List.mem_range.2 (by omega), by omega⟩

theorem staticTable_eq_rfc {i : Nat} (h1 : 1 ≤ i) (h2 : i ≤ 61) (h20 : i ≠ 20) :
    staticTableEntries.lookup i = staticTable[i - 1]? := by
  have h : (List.range 62).all (fun i => i == 0 || i == 20 ||
      staticTableEntries.lookup i == staticTable[i - 1]?) = true := by
    decide +kernel
  have := List.all_eq_true.1 h i (List.mem_range.2 (by omega))
  simp only [Bool.or_eq_true, beq_iff_eq] at this
  rcases this with (h0 | h0) | h0
  · omega
  · omega
  · exact h0

/-! ### Dynamic table -/

namespace DynamicTable

theorem headerSize_eq (h : Header) : headerSize h = entrySize h := rfl

/-- Size of a list of entries. -/
abbrev total (es : List Header) : Nat := Rfc.tableSize es

theorem total_cons (h : Header) (es : List Header) : total (h :: es) = headerSize h + total es := by
  simp [total, Rfc.tableSize, headerSize_eq]

@[simp] theorem total_nil : total [] = 0 := rfl

theorem total_append (a b : List Header) : total (a ++ b) = total a + total b := by
  simp [total, Rfc.tableSize]

theorem takeFit_all {b : Nat} {es : List Header} (h : total es ≤ b) : takeFit b es = es := by
  induction es generalizing b with
  | nil => rfl
  | cons e es ih =>
      rw [total_cons, headerSize_eq] at h
      rw [takeFit, if_pos (by omega), ih (by omega)]

theorem takeFit_append_single {b : Nat} {es : List Header} {h : Header}
    (hb : b < total (es ++ [h])) : takeFit b (es ++ [h]) = takeFit b es := by
  induction es generalizing b with
  | nil =>
      rw [List.nil_append, total_cons, total_nil, headerSize_eq] at hb
      have : ¬ entrySize h ≤ b := by omega
      simp [takeFit, this]
  | cons e es ih =>
      rw [List.cons_append, total_cons, headerSize_eq] at hb
      rw [List.cons_append, takeFit, takeFit]
      split
      · rw [ih (by omega)]
      · rfl

theorem takeFit_prefix (b : Nat) (es : List Header) : takeFit b es <+: es := by
  induction es generalizing b with
  | nil => exact List.prefix_refl _
  | cons e es ih =>
      rw [takeFit]
      split
      · exact (List.prefix_cons_inj e).2 (ih _)
      · exact List.nil_prefix

theorem takeFit_total (b : Nat) (es : List Header) : total (takeFit b es) ≤ b := by
  induction es generalizing b with
  | nil => simp [takeFit]
  | cons e es ih =>
      rw [takeFit]
      split
      · rw [total_cons, headerSize_eq]
        have := ih (b - entrySize e)
        omega
      · simp

/-- `takeFit` is the longest prefix that fits. -/
theorem takeFit_longest {b : Nat} {es p : List Header} (hp : p <+: es) (hb : total p ≤ b) :
    p <+: takeFit b es := by
  induction es generalizing b p with
  | nil => rw [List.prefix_nil] at hp; subst hp; exact List.nil_prefix
  | cons e es ih =>
      cases p with
      | nil => exact List.nil_prefix
      | cons q qs =>
          obtain ⟨rfl, hqs⟩ := List.cons_prefix_cons.1 hp
          rw [total_cons, headerSize_eq] at hb
          rw [takeFit, if_pos (by omega)]
          exact List.cons_prefix_cons.2 ⟨rfl, ih hqs (by omega)⟩

theorem resizeRev_spec (es : List Header) (extra max : Nat) (h64 : extra + total es < 2 ^ 64) :
    resizeRev es.reverse (extra + total es) max =
      if extra ≤ max then
        .ok ((takeFit (max - extra) es).reverse, extra + total (takeFit (max - extra) es))
      else .ub .emptyBack := by
  induction es using List.reverseRecOn with
  | nil =>
      simp only [List.reverse_nil, total_nil, Nat.add_zero, resizeRev, takeFit]
      by_cases h : extra ≤ max
      · rw [if_neg (by omega), if_pos h]
      · rw [if_pos (by omega), if_neg h]
  | append_singleton es h ih =>
      rw [List.reverse_append, List.reverse_singleton, List.singleton_append, resizeRev]
      rw [total_append, total_cons, total_nil] at h64 ⊢
      by_cases hgt : extra + (total es + (headerSize h + 0)) > max
      · rw [if_pos hgt]
        have e1 : (extra + (total es + (headerSize h + 0)) + 2 ^ 64 - headerSize h % 2 ^ 64) % 2 ^ 64 =
            extra + total es := by
          rw [Nat.mod_eq_of_lt (by omega : headerSize h < 2 ^ 64)]
          omega
        rw [e1, ih (by omega)]
        by_cases hx : extra ≤ max
        · rw [if_pos hx, if_pos hx, takeFit_append_single]
          rw [total_append, total_cons, total_nil]
          omega
        · rw [if_neg hx, if_neg hx]
      · rw [if_neg hgt, if_pos (by omega), takeFit_all]
        · rw [total_append, total_cons, total_nil, List.reverse_append, List.reverse_singleton,
            List.singleton_append]
        · rw [total_append, total_cons, total_nil]; omega

theorem resize_spec (es : List Header) (extra max : Nat) (h64 : extra + total es < 2 ^ 64) :
    resize es (extra + total es) max =
      if extra ≤ max then
        .ok (takeFit (max - extra) es, extra + total (takeFit (max - extra) es))
      else .ub .emptyBack := by
  unfold resize
  rw [resizeRev_spec es extra max h64]
  split <;> simp

/-- What every reachable table satisfies. -/
structure Inv (t : DynamicTable) : Prop where
  size : t.tableSize = total t.entries
  le : t.tableSize ≤ t.maxTableSize
  max : t.maxTableSize < 2 ^ 63

theorem inv_new {n : Nat} (hn : n < 2 ^ 63) : (new n).Inv := ⟨rfl, Nat.zero_le _, hn⟩

theorem inv_default : default.Inv := inv_new (by norm_num)

theorem push_fits {t : DynamicTable} (ht : t.Inv) {h : Header} (hh : headerSize h ≤ t.maxTableSize) :
    t.push h = .ok ⟨takeFit t.maxTableSize (h :: t.entries),
      total (takeFit t.maxTableSize (h :: t.entries)), t.maxTableSize⟩ := by
  obtain ⟨h1, h2, h3⟩ := ht
  unfold push
  rw [h1, Nat.add_comm, resize_spec _ _ _ (by rw [← h1]; omega), if_pos hh]
  rw [takeFit, if_pos (by rw [← headerSize_eq]; exact hh), total_cons]
  simp [headerSize_eq]

theorem push_oversized {t : DynamicTable} (hs : t.tableSize = total t.entries) {h : Header}
    (h64 : t.tableSize + headerSize h < 2 ^ 64) (hh : t.maxTableSize < headerSize h) :
    t.push h = .ub .emptyBack := by
  unfold push
  rw [hs, Nat.add_comm, resize_spec _ _ _ (by rw [← hs]; omega), if_neg (by omega)]
  rfl

theorem updateTableSize_eq {t : DynamicTable} (ht : t.Inv) (n : Nat) :
    t.updateTableSize n = .ok ⟨takeFit n t.entries, total (takeFit n t.entries), n⟩ := by
  obtain ⟨h1, h2, h3⟩ := ht
  have := resize_spec t.entries 0 n (by omega)
  unfold updateTableSize
  rw [Nat.zero_add] at this
  rw [h1, this, if_pos (Nat.zero_le _)]
  simp

theorem inv_push {t t' : DynamicTable} (ht : t.Inv) {h : Header}
    (hh : headerSize h ≤ t.maxTableSize) (hp : t.push h = .ok t') : t'.Inv := by
  rw [push_fits ht hh] at hp
  obtain rfl := (Res.ok.inj hp).symm
  exact ⟨rfl, takeFit_total _ _, ht.max⟩

theorem inv_updateTableSize {t t' : DynamicTable} (ht : t.Inv) {n : Nat} (hn : n < 2 ^ 63)
    (hp : t.updateTableSize n = .ok t') : t'.Inv := by
  rw [updateTableSize_eq ht] at hp
  obtain rfl := (Res.ok.inj hp).symm
  exact ⟨rfl, takeFit_total _ _, hn⟩

theorem push_refines {t : DynamicTable} (ht : t.Inv) {h : Header}
    (hh : headerSize h ≤ t.maxTableSize) :
    ∃ t', t.push h = .ok t' ∧ t'.Inv ∧ t'.toRfc = t.toRfc.insert h := by
  refine ⟨_, push_fits ht hh, ⟨rfl, takeFit_total _ _, ht.max⟩, rfl⟩

theorem updateTableSize_refines {t : DynamicTable} (ht : t.Inv) {n : Nat} (hn : n < 2 ^ 63) :
    ∃ t', t.updateTableSize n = .ok t' ∧ t'.Inv ∧ t'.toRfc = t.toRfc.setMax n :=
  ⟨_, updateTableSize_eq ht n, ⟨rfl, takeFit_total _ _, hn⟩, rfl⟩

end DynamicTable

end Mh2c
