/-
C106: inserting an entry the table already holds.
-/
import Verif.Props.TableApi

namespace Mh2c

open Rfc DynamicTable

theorem take_takeFit {budget i : Nat} {es : List Header} :
    i < (takeFit budget es).length ↔
      i < es.length ∧ ((es.take (i + 1)).map fun h => h.1.length + h.2.length + 32).sum ≤ budget := by
  induction es generalizing budget i with
  | nil => simp [takeFit]
  | cons e es ih =>
      unfold takeFit
      by_cases hb : entrySize e ≤ budget
      · rw [if_pos hb]
        unfold entrySize at hb ⊢
        cases i with
        | zero => simp; omega
        | succ i =>
            simp only [List.length_cons, Nat.add_lt_add_iff_right, List.take_succ_cons, List.map_cons,
              List.sum_cons]
            rw [ih]
            omega
      · rw [if_neg hb]
        unfold entrySize at hb
        simp only [List.length_nil, Nat.not_lt_zero, false_iff, List.take_succ_cons, List.map_cons,
          List.sum_cons]
        omega

theorem entry_fits {t : DynamicTable} (ht : t.Inv) {i : Nat} {h : Header}
    (hi : t.atPos i = .ok h) : headerSize h ≤ t.maxTableSize := by
  have hm : h ∈ t.entries := List.mem_of_getElem? (atPos_eq hi)
  obtain ⟨l1, l2, hl⟩ := List.append_of_mem hm
  have h1 := ht.size
  have h2 := ht.le
  rw [hl, total_append, total_cons] at h1
  omega

theorem pushOwn_eq {t : DynamicTable} (ht : t.Inv) {i : Nat} {h : Header}
    (hi : t.atPos i = .ok h) :
    t.pushOwn i =
      if i < (takeFit (t.maxTableSize - headerSize h) t.entries).length then t.push h
      else .ub .dangling := by
  have hf := entry_fits ht hi
  obtain ⟨h1, h2, h3⟩ := ht
  unfold pushOwn push
  rw [hi, Res.ok_bind, h1, Nat.add_comm, resize_spec _ _ _ (by rw [← h1]; omega), if_pos hf]
  simp only [Res.ok_bind]

/-! ## C106 -/

/-- C106, the part that holds: `table.push(table.at(i))` does the same as inserting a copy of the
entry if the entry survives the insertion: it, the newer entries and the new copy fit the maximum
together. Missing: the other entries, see below. -/
theorem C106_survives_partial (t : DynamicTable) (ht : TableHistory t) (i : Nat) (h : Header)
    (hi : t.atPos i = .ok h)
    (hfit : ((t.entries.take (i + 1)).map fun h => h.1.length + h.2.length + 32).sum +
      (h.1.length + h.2.length + 32) ≤ t.maxTableSize) :
    t.pushOwn i = t.push h ∧ ∃ t', t.push h = .ok t' ∧ t'.entries.head? = some h ∧
      t'.entries[i + 1]? = some h := by
  have hlt : i < (takeFit (t.maxTableSize - headerSize h) t.entries).length := by
    refine take_takeFit.2 ⟨(List.getElem?_eq_some_iff.1 (atPos_eq hi)).1, ?_⟩
    unfold headerSize
    omega
  refine ⟨by rw [pushOwn_eq ht.inv hi, if_pos hlt], ?_⟩
  have hf := entry_fits ht.inv hi
  refine ⟨_, push_fits ht.inv hf, ?_, ?_⟩
  · rw [takeFit, if_pos (by rw [← headerSize_eq]; exact hf)]
    rfl
  · rw [takeFit, if_pos (by rw [← headerSize_eq]; exact hf), List.getElem?_cons_succ]
    obtain ⟨more, hm⟩ := (takeFit_prefix (t.maxTableSize - entrySize h) t.entries)
    have he := atPos_eq hi
    rw [← hm, List.getElem?_append_left (by rw [← headerSize_eq]; exact hlt)] at he
    exact he

/-- C106 is false of the code for every other entry: the insertion removes the entry and then reads
it. Inserting a copy of the same entry succeeds. -/
theorem C106_evicted_violated (t : DynamicTable) (ht : TableHistory t) (i : Nat) (h : Header)
    (hi : t.atPos i = .ok h)
    (hfit : t.maxTableSize < ((t.entries.take (i + 1)).map fun h => h.1.length + h.2.length + 32).sum +
      (h.1.length + h.2.length + 32)) :
    (t.pushOwn i).IsUb ∧ ∃ t', t.push h = .ok t' := by
  have hlt : ¬ i < (takeFit (t.maxTableSize - headerSize h) t.entries).length := by
    intro hc
    have := (take_takeFit.1 hc).2
    have hf := entry_fits ht.inv hi
    unfold headerSize at this hf
    omega
  exact ⟨by rw [pushOwn_eq ht.inv hi, if_neg hlt]; exact ⟨_, rfl⟩, _, push_fits ht.inv (entry_fits ht.inv hi)⟩

/-- Two tables with one entry, one with room for a second copy and one without. -/
example : (TableHistory ⟨[(bstr "a", bstr "1")], 34, 68⟩ ∧
      (⟨[(bstr "a", bstr "1")], 34, 68⟩ : DynamicTable).pushOwn 0 =
        .ok ⟨[(bstr "a", bstr "1"), (bstr "a", bstr "1")], 68, 68⟩) ∧
    TableHistory ⟨[(bstr "a", bstr "1")], 34, 67⟩ ∧
      (⟨[(bstr "a", bstr "1")], 34, 67⟩ : DynamicTable).pushOwn 0 = .ub .dangling :=
  ⟨⟨.push (.new 68) _ (bstr "a", bstr "1") (.new 68 (by decide)) (by decide) (by decide +kernel),
    by decide +kernel⟩,
   .push (.new 67) _ (bstr "a", bstr "1") (.new 67 (by decide)) (by decide) (by decide +kernel),
    by decide +kernel⟩

end Mh2c
