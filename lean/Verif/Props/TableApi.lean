/-
C92: the whole public interface of the dynamic table.
-/
import Verif.Props.Tables
import Verif.Spec.Session

namespace Mh2c

open Rfc DynamicTable

theorem sum_set (old new : Header) : ∀ (es : List Header) (i : Nat), es[i]? = some old →
    ((es.set i new).map fun h => h.1.length + h.2.length + 32).sum + (old.1.length + old.2.length) =
      (es.map fun h => h.1.length + h.2.length + 32).sum + (new.1.length + new.2.length) := by
  intro es
  induction es with
  | nil => intro i h; cases h
  | cons e es ih =>
      intro i h
      cases i with
      | zero =>
          obtain rfl : e = old := by simpa using h
          simp only [List.set_cons_zero, List.map_cons, List.sum_cons]
          omega
      | succ i =>
          have := ih i (by simpa using h)
          simp only [List.set_cons_succ, List.map_cons, List.sum_cons]
          omega

theorem atPos_eq {t : DynamicTable} {i : Nat} {old : Header} (hi : t.atPos i = .ok old) :
    t.entries[i]? = some old := by
  unfold DynamicTable.atPos at hi
  split at hi
  · rename_i h heq
    rw [heq, Res.ok.inj hi]
  · cases hi

theorem writeThrough_eq {t t' : DynamicTable} {i : Nat} {new : Header}
    (hw : t.writeThrough i new = .ok t') : t' = { t with entries := t.entries.set i new } := by
  unfold DynamicTable.writeThrough at hw
  split at hw
  · exact (Res.ok.inj hw).symm
  · cases hw

theorem TableHistory.inv {t : DynamicTable} (h : TableHistory t) : t.Inv := by
  induction h with
  | new n hn => exact inv_new hn
  | push t t' h ht hs hp ih =>
      by_cases hf : headerSize h ≤ t.maxTableSize
      · obtain ⟨t1, h1, h2, -⟩ := push_refines ih hf
        rw [hp] at h1
        obtain rfl := Res.ok.inj h1
        exact h2
      · have h1 := ih.le
        have h2 := ih.max
        rw [push_oversized ih.size (by unfold headerSize; omega) (by omega)] at hp
        cases hp
  | setMax t t' n ht hn hp ih =>
      obtain ⟨t1, h1, h2, -⟩ := updateTableSize_refines ih hn
      rw [hp] at h1
      obtain rfl := Res.ok.inj h1
      exact h2
  | write t t' i old new ht hi hs hw ih =>
      have hsum := sum_set old new t.entries i (atPos_eq hi)
      obtain rfl := writeThrough_eq hw
      have h1 : t.tableSize = (t.entries.map fun h => h.1.length + h.2.length + 32).sum := ih.size
      unfold entrySize at hs
      refine ⟨?_, ih.le, ih.max⟩
      show t.tableSize = ((t.entries.set i new).map fun h => h.1.length + h.2.length + 32).sum
      omega

/-! ## C92 -/

/-- C92, the part that holds: with pushes, size changes and writes that keep the size of the entry,
in any order, the recorded size is right and within the maximum.
Missing: other writes, see below. -/
theorem C92_accounting_partial (t : DynamicTable) (h : TableHistory t) : Accounted t := by
  exact ⟨h.inv.size, h.inv.le⟩

/-- C92. Writing through an iterator is defined exactly for the positions that `at` accepts; then `at`
gives the new header there and what it gave before everywhere else, and nothing else changes. -/
theorem C92_write (t : DynamicTable) (i : Nat) (new : Header) :
    ((t.writeThrough i new).IsUb ↔ t.atPos i = .throw .outOfRange) ∧
    ((∃ old, t.atPos i = .ok old) ↔ ∃ t', t.writeThrough i new = .ok t') ∧
    ∀ t', t.writeThrough i new = .ok t' →
      (∀ j, t'.atPos j = if j = i then .ok new else t.atPos j) ∧
      t'.entries.length = t.entries.length ∧ t'.tableSize = t.tableSize ∧
      t'.maxTableSize = t.maxTableSize := by
  unfold DynamicTable.writeThrough
  by_cases hi : i < t.entries.length
  · have h1 : t.atPos i = .ok t.entries[i] := by
      unfold DynamicTable.atPos; rw [List.getElem?_eq_getElem hi]
    rw [if_pos hi, h1]
    refine ⟨⟨(fun ⟨k, hk⟩ => nomatch hk), (fun h => nomatch h)⟩,
      ⟨fun _ => ⟨_, rfl⟩, fun _ => ⟨_, rfl⟩⟩, ?_⟩
    intro t' ht
    obtain rfl := Res.ok.inj ht
    refine ⟨fun j => ?_, List.length_set, rfl, rfl⟩
    show DynamicTable.atPos _ j = _
    unfold DynamicTable.atPos
    by_cases hj : j = i
    · subst hj
      rw [if_pos rfl]
      simp only
      rw [List.getElem?_set_self hi]
    · rw [if_neg hj]
      simp only
      rw [List.getElem?_set_ne (by omega)]
  · have h1 : t.atPos i = .throw .outOfRange := by
      unfold DynamicTable.atPos; rw [List.getElem?_eq_none (by omega)]
    rw [if_neg hi, h1]
    refine ⟨⟨fun _ => rfl, fun _ => ⟨_, rfl⟩⟩,
      ⟨(fun ⟨_, h⟩ => nomatch h), (fun ⟨_, h⟩ => nomatch h)⟩, fun t' ht => nomatch ht⟩

/-- Both cases occur: a table of two entries, the second position and the one behind it. -/
example : let t : DynamicTable := ⟨[(bstr "b", bstr "2"), (bstr "a", bstr "1")], 68, 4096⟩
    t.atPos 1 = .ok (bstr "a", bstr "1") ∧ t.atPos 2 = .throw .outOfRange ∧
    t.writeThrough 1 (bstr "a", bstr "3") =
      .ok ⟨[(bstr "b", bstr "2"), (bstr "a", bstr "3")], 68, 4096⟩ := by decide +kernel

/-- C92 is false of the code: entries can be written through the iterators of a table, and whenever
the new header has another size, the recorded size is wrong from then on. -/
theorem C92_iterator_write_violated (t t' : DynamicTable) (ht : TableHistory t) (i : Nat)
    (old new : Header) (hi : t.atPos i = .ok old) (hw : t.writeThrough i new = .ok t')
    (hne : entrySize new ≠ entrySize old) : ¬ Accounted t' := by
  have hsum := sum_set old new t.entries i (atPos_eq hi)
  obtain rfl := writeThrough_eq hw
  have h1 : t.tableSize = (t.entries.map fun h => h.1.length + h.2.length + 32).sum :=
    (C92_accounting_partial t ht).1
  rintro ⟨h2, -⟩
  have h2 : t.tableSize = ((t.entries.set i new).map fun h => h.1.length + h.2.length + 32).sum := h2
  unfold entrySize at hne
  omega

/-- And then an ordinary call can be undefined: the entry is written, then evicted with a size it
never had. -/
theorem C92_later_call_violated :
    ∃ t t1 t2, TableHistory t ∧ t.writeThrough 0 (bstr "abcd", bstr "1") = .ok t1 ∧
      t1.updateTableSize 0 = t2 ∧ t2 = .ub .emptyBack := by
  refine ⟨⟨[(bstr "a", bstr "1")], 34, 4096⟩, ⟨[(bstr "abcd", bstr "1")], 34, 4096⟩, _, ?_,
    by decide +kernel, rfl, by decide +kernel⟩
  exact .push (.new 4096) _ (bstr "a", bstr "1") (.new 4096 (by decide)) (by decide) (by decide +kernel)

/-- A history with every kind of call. -/
example : TableHistory ⟨[(bstr "b", bstr "2")], 34, 60⟩ :=
  .setMax ⟨[(bstr "b", bstr "2")], 34, 4096⟩ _ 60
    (.write ⟨[(bstr "a", bstr "1")], 34, 4096⟩ _ 0 (bstr "a", bstr "1") (bstr "b", bstr "2")
      (.push (.new 4096) _ (bstr "a", bstr "1") (.new 4096 (by decide)) (by decide) (by decide +kernel))
      (by decide +kernel) (by decide) (by decide +kernel))
    (by decide) (by decide +kernel)

end Mh2c
