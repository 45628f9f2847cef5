/-
C138, C139: what is left behind when memory runs out.
-/
import Verif.Spec.Memory
import Verif.Proofs.Tables
import Verif.Props.Client

namespace Mh2c

open Rfc DynamicTable

/-! ## C138 -/

/-- `push` with memory is `push`. -/
theorem pushMem_true (t : DynamicTable) (h : Header) :
    t.pushMem h true = match t.push h with
      | .ok t' => (.res (.ok ()), t')
      | .throw e => (.res (.throw e), t)
      | .ub k => (.res (.ub k), t)
      | .diverge => (.res .diverge, t) := by
  unfold DynamicTable.pushMem DynamicTable.push
  cases DynamicTable.resize t.entries (t.tableSize + headerSize h) t.maxTableSize <;> rfl

theorem sizes_eq (hs : List Header) : sizes hs = total hs := rfl

/-- What `push` does to a table that records more than its entries. -/
theorem pushMem_eq {t : DynamicTable} {lost : Nat} (hsize : t.tableSize = total t.entries + lost)
    (hle : t.tableSize ≤ t.maxTableSize) (hm : t.maxTableSize < 2 ^ 63) (h : Header)
    (hs : headerSize h < 2 ^ 63) (enough : Bool) :
    t.pushMem h enough =
      if lost + headerSize h ≤ t.maxTableSize then
        let es := takeFit (t.maxTableSize - (lost + headerSize h)) t.entries
        if enough then (.res (.ok ()), ⟨h :: es, lost + headerSize h + total es, t.maxTableSize⟩)
        else (.badAlloc, ⟨es, lost + headerSize h + total es, t.maxTableSize⟩)
      else (.res (.ub .emptyBack), t) := by
  unfold DynamicTable.pushMem
  rw [show t.tableSize + headerSize h = (lost + headerSize h) + total t.entries by omega,
    resize_spec _ _ _ (by omega)]
  by_cases hc : lost + headerSize h ≤ t.maxTableSize
  · rw [if_pos hc, if_pos hc]
  · rw [if_neg hc, if_neg hc]

theorem setMax_eq {t : DynamicTable} {lost : Nat} (hsize : t.tableSize = total t.entries + lost)
    (hle : t.tableSize ≤ t.maxTableSize) (hm : t.maxTableSize < 2 ^ 63) (n : Nat) :
    t.updateTableSize n =
      if lost ≤ n then .ok ⟨takeFit (n - lost) t.entries, lost + total (takeFit (n - lost) t.entries), n⟩
      else .ub .emptyBack := by
  unfold DynamicTable.updateTableSize
  rw [show t.tableSize = lost + total t.entries by omega, resize_spec _ _ _ (by omega)]
  split <;> rfl

/-- What holds of every table after a history in which memory ran out. -/
theorem ScarceHistory.inv {initial : Nat} {ops : List ScarceOp} {t : DynamicTable}
    (h : ScarceHistory initial ops t) :
    t.tableSize = total t.entries + total (failed ops) ∧ t.tableSize ≤ t.maxTableSize ∧
      t.maxTableSize < 2 ^ 63 := by
  induction h with
  | new hn => exact ⟨rfl, Nat.zero_le _, hn⟩
  | push ops t t' h ht hs hp ih =>
      obtain ⟨h1, h2, h3⟩ := ih
      rw [pushMem_eq h1 h2 h3 h hs] at hp
      split at hp
      · obtain rfl := (Prod.mk.inj hp).2
        have := takeFit_total (t.maxTableSize - (total (failed ops) + headerSize h)) t.entries
        have e : failed (ops ++ [.push h]) = failed ops := by simp [failed]
        rw [e]
        simp only [total_cons]
        omega
      · cases hp
  | pushFails ops t t' h ht hs hp ih =>
      obtain ⟨h1, h2, h3⟩ := ih
      rw [pushMem_eq h1 h2 h3 h hs] at hp
      split at hp
      · obtain rfl := (Prod.mk.inj hp).2
        have := takeFit_total (t.maxTableSize - (total (failed ops) + headerSize h)) t.entries
        have e : failed (ops ++ [.pushFails h]) = failed ops ++ [h] := by simp [failed]
        rw [e]
        simp only [total_append, total_cons, total_nil]
        omega
      · cases hp
  | setMax ops t t' n ht hn hp ih =>
      obtain ⟨h1, h2, h3⟩ := ih
      rw [setMax_eq h1 h2 h3] at hp
      split at hp
      · obtain rfl := (Res.ok.inj hp).symm
        have := takeFit_total (n - total (failed ops)) t.entries
        have e : failed (ops ++ [.setMax n]) = failed ops := by simp [failed]
        rw [e]
        simp only
        omega
      · cases hp

/-- C138, exactly: after any history of calls in which memory may have run out, the size a table
records is that of its entries and of all the headers that could not be inserted, for ever; it is within
the maximum. Missing: that it is the size of the entries (false of the code). -/
theorem C138_recorded_partial (initial : Nat) (ops : List ScarceOp) (t : DynamicTable)
    (h : ScarceHistory initial ops t) :
    t.tableSize = sizes t.entries + sizes (failed ops) ∧ t.tableSize ≤ t.maxTableSize :=
  ⟨h.inv.1, h.inv.2.1⟩

/-- C138, exactly: which calls are defined after such a history. There has to be room for the headers
that are not there. Missing: the other calls, which are undefined behaviour. -/
theorem C138_defined_partial (initial : Nat) (ops : List ScarceOp) (t : DynamicTable)
    (h : ScarceHistory initial ops t) :
    (∀ new : Header, new.1.length + new.2.length + 32 < 2 ^ 63 → ∀ enough,
      (t.pushMem new enough).1 =
        if sizes (failed ops) + sizes [new] ≤ t.maxTableSize then
          if enough then .res (.ok ()) else .badAlloc
        else .res (.ub .emptyBack)) ∧
    ∀ n, (∃ t', t.updateTableSize n = .ok t') ∧ sizes (failed ops) ≤ n ∨
      t.updateTableSize n = .ub .emptyBack ∧ n < sizes (failed ops) := by
  obtain ⟨h1, h2, h3⟩ := h.inv
  constructor
  · intro new hs enough
    rw [pushMem_eq h1 h2 h3 new hs]
    have e : sizes [new] = headerSize new := by simp [sizes, headerSize]
    rw [e, sizes_eq]
    split
    · cases enough <;> rfl
    · rfl
  · intro n
    rw [setMax_eq h1 h2 h3, sizes_eq]
    split
    · exact Or.inl ⟨⟨_, rfl⟩, by assumption⟩
    · exact Or.inr ⟨rfl, by omega⟩

/-- C138, exactly: what the table holds after the next call. It is what RFC 7541 4.4 says of a table
whose maximum is smaller by the size of all headers that could not be inserted. Missing: that it is so
with the maximum that was set (false of the code). -/
theorem C138_entries_partial (initial : Nat) (ops : List ScarceOp) (t t' : DynamicTable)
    (h : ScarceHistory initial ops t) :
    (∀ new : Header, new.1.length + new.2.length + 32 < 2 ^ 63 →
      t.pushMem new true = (.res (.ok ()), t') →
      t'.entries = takeFit (t.maxTableSize - sizes (failed ops)) (new :: t.entries) ∧
      t'.maxTableSize = t.maxTableSize) ∧
    (∀ new : Header, new.1.length + new.2.length + 32 < 2 ^ 63 →
      t.pushMem new false = (.badAlloc, t') →
      new :: t'.entries = takeFit (t.maxTableSize - sizes (failed ops)) (new :: t.entries) ∧
      t'.maxTableSize = t.maxTableSize) ∧
    ∀ n, t.updateTableSize n = .ok t' →
      t'.entries = takeFit (n - sizes (failed ops)) t.entries ∧ t'.maxTableSize = n := by
  obtain ⟨h1, h2, h3⟩ := h.inv
  rw [sizes_eq]
  refine ⟨fun new hs hp => ?_, fun new hs hp => ?_, fun n hp => ?_⟩
  · rw [pushMem_eq h1 h2 h3 new hs] at hp
    split at hp
    · obtain rfl := (Prod.mk.inj hp).2
      refine ⟨?_, rfl⟩
      rw [takeFit, if_pos (by rw [← headerSize_eq]; omega), Nat.sub_sub]
      rfl
    · cases hp
  · rw [pushMem_eq h1 h2 h3 new hs] at hp
    split at hp
    · obtain rfl := (Prod.mk.inj hp).2
      refine ⟨?_, rfl⟩
      rw [takeFit, if_pos (by rw [← headerSize_eq]; omega), Nat.sub_sub]
      rfl
    · cases hp
  · rw [setMax_eq h1 h2 h3] at hp
    split at hp
    · obtain rfl := (Res.ok.inj hp).symm
      exact ⟨rfl, rfl⟩
    · cases hp

/-- C138 is false of the code: whenever the insertion of a header fails for lack of memory, the table
records the size of a header that is not there, and from then on

* setting any maximum below the size of the header, 0 above all, is undefined behaviour;
* so is pushing any header that fits the table, but not together with the one that is not there. -/
theorem C138_bad_alloc_violated (initial : Nat) (ops : List ScarceOp) (t t' : DynamicTable)
    (h : ScarceHistory initial ops t) (new : Header) (hs : new.1.length + new.2.length + 32 < 2 ^ 63)
    (hf : t.pushMem new false = (.badAlloc, t')) :
    ¬ Accounted t' ∧ t'.entries <+: t.entries ∧
    (∀ n, n < new.1.length + new.2.length + 32 → t'.updateTableSize n = .ub .emptyBack) ∧
    ∀ next : Header, t'.maxTableSize <
        (new.1.length + new.2.length + 32) + (next.1.length + next.2.length + 32) →
      next.1.length + next.2.length + 32 ≤ t'.maxTableSize → t'.push next = .ub .emptyBack := by
  have h' := ScarceHistory.pushFails ops t t' new h hs hf
  obtain ⟨h1, h2, h3⟩ := h'.inv
  have e : total (failed (ops ++ [.pushFails new])) =
      total (failed ops) + (new.1.length + new.2.length + 32) := by
    have : failed (ops ++ [.pushFails new]) = failed ops ++ [new] := by simp [failed]
    rw [this, total_append, total_cons, total_nil]; rfl
  rw [e] at h1
  have hlen : t'.entries <+: t.entries := by
    obtain ⟨g1, g2, g3⟩ := h.inv
    rw [pushMem_eq g1 g2 g3 new hs] at hf
    split at hf
    · obtain rfl := (Prod.mk.inj hf).2
      exact takeFit_prefix _ _
    · cases hf
  refine ⟨?_, hlen, fun n hn => ?_, fun next hn hfit => ?_⟩
  · rintro ⟨g, -⟩
    have g : t'.tableSize = total t'.entries := g
    omega
  · rw [setMax_eq h1 h2 h3, if_neg (by omega)]
  · have hp := pushMem_true t' next
    rw [pushMem_eq h1 h2 h3 next (by show next.1.length + next.2.length + 32 < _; omega),
      if_neg (by show ¬ _ + (next.1.length + next.2.length + 32) ≤ _; omega)] at hp
    cases hq : t'.push next with
    | ok a => rw [hq] at hp; cases hp
    | throw a => rw [hq] at hp; cases hp
    | ub k => rw [hq] at hp; cases hp; rfl
    | diverge => rw [hq] at hp; cases hp

/-- Non-vacuity of the theorems of C138: a table of 100 octets, a header is inserted, the insertion of a
second one fails. A third replaces the first although there is room for both. If its insertion fails too
the table is empty, and pushing a header of 34 octets is undefined. -/
example : ScarceHistory 100 [.push (bstr "a", bstr "1"), .pushFails (bstr "b", bstr "2")]
      ⟨[(bstr "a", bstr "1")], 68, 100⟩ ∧
    (DynamicTable.mk [(bstr "a", bstr "1")] 68 100).push (bstr "c", bstr "3") =
      .ok ⟨[(bstr "c", bstr "3")], 68, 100⟩ ∧
    (DynamicTable.mk [(bstr "a", bstr "1")] 68 100).pushMem (bstr "c", bstr "3") false =
      (.badAlloc, ⟨[], 68, 100⟩) ∧
    (DynamicTable.mk [] 68 100).push (bstr "d", bstr "4") = .ub .emptyBack ∧
    (DynamicTable.mk [(bstr "a", bstr "1")] 68 100).updateTableSize 0 = .ub .emptyBack := by
  refine ⟨?_, by decide +kernel, by decide +kernel, by decide +kernel, by decide +kernel⟩
  exact .pushFails [.push (bstr "a", bstr "1")] ⟨[(bstr "a", bstr "1")], 34, 100⟩ _ _
    (.push [] (.new 100) _ _ (.new (by decide)) (by decide) (by decide +kernel)) (by decide)
    (by decide +kernel)

/-! ## C139 -/

theorem raise_cases {α : Type} (r : Res α) (m : Memory) :
    (raise r m).1 = .res r ∨ (raise r m).1 = .badAlloc ∧ ∃ e, r = .throw e := by
  cases r with
  | throw e =>
      unfold raise
      cases m.next.1
      · exact Or.inr ⟨rfl, e, rfl⟩
      · exact Or.inl rfl
  | ok a => exact Or.inl rfl
  | ub k => exact Or.inl rfl
  | diverge => exact Or.inl rfl

theorem raise_nil {α : Type} (r : Res α) : raise r [] = (.res r, []) := by
  cases r <;> rfl

theorem updateEntryMem_cases (e : HeaderEntry) (t : DynamicTable) (m : Memory) :
    ((updateEntryMem e t m).1 = .res (.ok ()) ∧
        updateDynamicTableEntry e t = .ok (updateEntryMem e t m).2.1) ∨
      (∃ r, (updateEntryMem e t m).1 = .res r ∧ (∀ a, r ≠ .ok a) ∧ (updateEntryMem e t m).2.1 = t ∧
        (updateDynamicTableEntry e t = match r with
          | .ok _ => .ok t
          | .throw x => .throw x
          | .ub k => .ub k
          | .diverge => .diverge)) ∨
      ((updateEntryMem e t m).1 = .badAlloc ∧ ((updateEntryMem e t m).2.1 = t ∨
        e.pfx = .incrementalIndexing ∧ ∃ h, e.entry = .header h ∧
          t.pushMem h false = (.badAlloc, (updateEntryMem e t m).2.1))) := by
  unfold updateEntryMem updateDynamicTableEntry
  by_cases h1 : e.pfx = .incrementalIndexing
  · rw [if_pos h1, if_pos h1]
    cases m.next.1
    · exact Or.inr (Or.inr ⟨rfl, Or.inl rfl⟩)
    · simp only [if_true]
      unfold HeaderEntry.getHeader
      cases he : e.entry with
      | header h =>
          simp only
          cases m.next.2.next.1
          · unfold DynamicTable.pushMem
            show _ ∨ (∃ r, _ ∧ _ ∧ _ ∧ t.push h = _) ∨ _
            unfold DynamicTable.push
            cases hr : DynamicTable.resize t.entries (t.tableSize + headerSize h) t.maxTableSize with
            | ok p => exact Or.inr (Or.inr ⟨rfl, Or.inr ⟨h1, h, rfl, by simp only [hr]; rfl⟩⟩)
            | throw x => exact Or.inr (Or.inl ⟨_, rfl, nofun, rfl, rfl⟩)
            | ub x => exact Or.inr (Or.inl ⟨_, rfl, nofun, rfl, rfl⟩)
            | diverge => exact Or.inr (Or.inl ⟨_, rfl, nofun, rfl, rfl⟩)
          · rw [pushMem_true]
            show (_ ∧ t.push h = _) ∨ (∃ r, _ ∧ _ ∧ _ ∧ t.push h = _) ∨ _
            cases t.push h with
            | ok p => exact Or.inl ⟨rfl, rfl⟩
            | throw x => exact Or.inr (Or.inl ⟨_, rfl, nofun, rfl, rfl⟩)
            | ub x => exact Or.inr (Or.inl ⟨_, rfl, nofun, rfl, rfl⟩)
            | diverge => exact Or.inr (Or.inl ⟨_, rfl, nofun, rfl, rfl⟩)
      | maxSize n => exact Or.inr (Or.inl ⟨_, rfl, nofun, rfl, rfl⟩)
  · rw [if_neg h1, if_neg h1]
    by_cases h2 : e.pfx = .sizeUpdate
    · rw [if_pos h2, if_pos h2]
      unfold HeaderEntry.getMaxSize
      cases he : e.entry with
      | maxSize n =>
          show (_ ∧ t.updateTableSize n = _) ∨ (∃ r, _ ∧ _ ∧ _ ∧ t.updateTableSize n = _) ∨ _
          simp only
          cases t.updateTableSize n with
          | ok p => exact Or.inl ⟨rfl, rfl⟩
          | throw x => exact Or.inr (Or.inl ⟨_, rfl, nofun, rfl, rfl⟩)
          | ub x => exact Or.inr (Or.inl ⟨_, rfl, nofun, rfl, rfl⟩)
          | diverge => exact Or.inr (Or.inl ⟨_, rfl, nofun, rfl, rfl⟩)
      | header h =>
          rcases raise_cases (α := Unit) (.throw .runtimeError) m with h3 | ⟨h3, -⟩
          · exact Or.inr (Or.inl ⟨_, h3, nofun, rfl, rfl⟩)
          · exact Or.inr (Or.inr ⟨h3, Or.inl rfl⟩)
    · rw [if_neg h2, if_neg h2]
      exact Or.inl ⟨rfl, rfl⟩

theorem updateTableMem_cases (block : HeaderBlock) (t : DynamicTable) (m : Memory) :
    (∃ r, (updateTableMem block t m).1 = .res r ∧
      updateDynamicTable block t = (r, (updateTableMem block t m).2.1)) ∨
    ((updateTableMem block t m).1 = .badAlloc ∧ StopsInside block t (updateTableMem block t m).2.1) := by
  induction block generalizing t m with
  | nil => exact Or.inl ⟨.ok (), rfl, rfl⟩
  | cons e es ih =>
      have hc := updateEntryMem_cases e t m
      unfold updateTableMem updateDynamicTable
      rcases hu : updateEntryMem e t m with ⟨r, t', m'⟩
      rw [hu] at hc
      rcases hc with ⟨h1, h2⟩ | ⟨r', h1, h2, h3, h4⟩ | ⟨h1, h2⟩
      · cases h1
        simp only at h2 ⊢
        rw [h2]
        simp only
        rcases ih t' m' with h5 | ⟨h5, done, e', rest, u, h6, h7, h8⟩
        · exact Or.inl h5
        · refine Or.inr ⟨h5, e :: done, e', rest, u, by rw [h6]; rfl, ?_, h8⟩
          unfold updateDynamicTable
          rw [h2]
          exact h7
      · cases h1
        simp only at h3 h4
        subst h3
        left
        refine ⟨r', ?_⟩
        cases r' with
        | ok a => exact absurd rfl (h2 a)
        | throw x => rw [h4]; exact ⟨rfl, rfl⟩
        | ub x => rw [h4]; exact ⟨rfl, rfl⟩
        | diverge => rw [h4]; exact ⟨rfl, rfl⟩
      · cases h1
        exact Or.inr ⟨rfl, [], e, es, t, rfl, rfl, h2⟩

theorem copyBlockMem_cases (block : HeaderBlock) (t : DynamicTable) (m : Memory) :
    (∃ r, (copyBlockMem block t m).1 = .res r ∧
      updateDynamicTable block t = (r, (copyBlockMem block t m).2.1)) ∨
    ((copyBlockMem block t m).1 = .badAlloc ∧ StopsInside block t (copyBlockMem block t m).2.1) := by
  unfold copyBlockMem
  by_cases hb : block = []
  · rw [if_pos hb, hb]
    exact Or.inl ⟨_, rfl, rfl⟩
  · rw [if_neg hb]
    cases m.next.1
    · obtain ⟨e, es, rfl⟩ := List.exists_cons_of_ne_nil hb
      exact Or.inr ⟨rfl, [], e, es, t, rfl, rfl, Or.inl rfl⟩
    · exact updateTableMem_cases block t m.next.2

theorem updateFrameMem_cases (f : Frame) (t : DynamicTable) (m : Memory) :
    (∃ r, (updateFrameMem f t m).1 = .res r ∧
      updateDynamicTableFrame f t = (r, (updateFrameMem f t m).2.1)) ∨
    ((updateFrameMem f t m).1 = .badAlloc ∧
      ((updateFrameMem f t m).2.1 = t ∨ StopsInside f.blockOf t (updateFrameMem f t m).2.1)) := by
  unfold updateFrameMem
  split
  · rename_i h he
    rcases copyBlockMem_cases h.headerBlock t m with ⟨r, h1, h2⟩ | h1
    · left
      refine ⟨r, h1, ?_⟩
      unfold updateDynamicTableFrame
      rw [he]
      exact h2
    · exact Or.inr ⟨h1.1, Or.inr h1.2⟩
  · rename_i h he
    rcases copyBlockMem_cases h.payload.headerBlock t m with ⟨r, h1, h2⟩ | h1
    · left
      refine ⟨r, h1, ?_⟩
      unfold updateDynamicTableFrame
      rw [he]
      exact h2
    · exact Or.inr ⟨h1.1, Or.inr h1.2⟩
  · rename_i h he
    rcases copyBlockMem_cases h.headerBlock t m with ⟨r, h1, h2⟩ | h1
    · left
      refine ⟨r, h1, ?_⟩
      unfold updateDynamicTableFrame
      rw [he]
      exact h2
    · exact Or.inr ⟨h1.1, Or.inr h1.2⟩
  · split
    · exact Or.inl ⟨_, rfl, rfl⟩
    · exact Or.inr ⟨rfl, Or.inl rfl⟩
  · exact Or.inl ⟨_, rfl, rfl⟩

/-- How `build_frame` ends: as without, with `std::bad_alloc`, or with a raw frame for HEADERS. -/
theorem buildFrameMem_cases [Platform] (fh : FrameHeader) (raw : Bytes) (t : DynamicTable) (m : Memory) :
    (buildFrameMem fh raw t m).1 = .res (buildFrame fh raw t) ∨
    (buildFrameMem fh raw t m).1 = .badAlloc ∨
    (frameTypeOf fh.type = some .headers ∧
      (buildFrameMem fh raw t m).1 = .res (.ok (.raw ⟨fh, raw⟩))) := by
  unfold buildFrameMem
  by_cases hh : frameTypeOf fh.type = some .headers
  · rw [if_pos hh]
    have hr : (if m.next.2.next.1 then
          (Ended.res (Res.ok (Frame.raw ⟨fh, raw⟩)), m.next.2.next.2)
        else (.badAlloc, m.next.2.next.2)).1 = .badAlloc ∨
        (if m.next.2.next.1 then (Ended.res (Res.ok (Frame.raw ⟨fh, raw⟩)), m.next.2.next.2)
        else (.badAlloc, m.next.2.next.2)).1 = .res (.ok (.raw ⟨fh, raw⟩)) := by
      cases m.next.2.next.1
      · exact Or.inl rfl
      · exact Or.inr rfl
    unfold buildHeadersFrameMem
    simp only
    cases m.next.1
    · rcases hr with h | h
      · exact Or.inr (Or.inl h)
      · exact Or.inr (Or.inr ⟨hh, h⟩)
    · simp only [if_true]
      have hb : buildFrame fh raw t = buildHeadersFrame fh raw t := by
        unfold buildFrame; rw [hh]
      rw [hb]
      unfold buildHeadersFrame
      cases HeadersFrame.ofRaw fh raw t with
      | ok f => exact Or.inl rfl
      | throw e =>
          rcases hr with h | h
          · exact Or.inr (Or.inl h)
          · exact Or.inl h
      | ub k => exact Or.inl rfl
      | diverge => exact Or.inl rfl
  · rw [if_neg hh]
    cases m.next.1
    · exact Or.inr (Or.inl rfl)
    · exact Or.inl rfl

theorem updateFrameMem_raw (fh : FrameHeader) (raw : Bytes) (hh : frameTypeOf fh.type = some .headers)
    (t : DynamicTable) (m : Memory) :
    updateFrameMem (.raw ⟨fh, raw⟩) t m = (.res (.ub .nullDeref), t, m) := by
  unfold updateFrameMem updateDynamicTableFrame
  have e : frameTypeOf (Frame.raw ⟨fh, raw⟩).header.type = some .headers := hh
  rw [e]

theorem processFrameMem_cases [Platform] (c : Client) (fh : FrameHeader) (raw : Bytes) (m : Memory) :
    (∃ r, (c.processFrameMem fh raw m).1 = .res r ∧
      c.processFrame fh raw = (r, (c.processFrameMem fh raw m).2.1)) ∨
    (frameTypeOf fh.type = some .headers ∧
      (c.processFrameMem fh raw m).1 = .res (.ub .nullDeref)) ∨
    ((c.processFrameMem fh raw m).1 = .badAlloc ∧ ∃ t,
      (c.processFrameMem fh raw m).2.1 = { c with responseTable := t } ∧
      (t = c.responseTable ∨ ∃ f, buildFrame fh raw c.responseTable = .ok f ∧
        StopsInside f.blockOf c.responseTable t)) := by
  have hb := buildFrameMem_cases fh raw c.responseTable m
  unfold Client.processFrameMem Client.processFrame
  rcases hm : buildFrameMem fh raw c.responseTable m with ⟨r, m1⟩
  rw [hm] at hb
  rcases hb with h1 | h1 | ⟨hh, h1⟩
  · cases h1
    cases buildFrame fh raw c.responseTable with
    | ok f =>
        simp only
        have h := updateFrameMem_cases f c.responseTable m1
        rcases hu : updateFrameMem f c.responseTable m1 with ⟨r, t, m'⟩
        rw [hu] at h
        rcases h with ⟨r', h1, h2⟩ | ⟨h1, h2⟩
        · cases h1
          simp only at h2
          rw [h2]
          left
          rcases r' with _ | _ | _ | _ <;> exact ⟨_, rfl, rfl⟩
        · cases h1
          rcases h2 with h2 | h2
          · exact Or.inr (Or.inr ⟨rfl, t, rfl, Or.inl h2⟩)
          · exact Or.inr (Or.inr ⟨rfl, t, rfl, Or.inr ⟨f, rfl, h2⟩⟩)
    | throw e => exact Or.inl ⟨_, rfl, rfl⟩
    | ub k => exact Or.inl ⟨_, rfl, rfl⟩
    | diverge => exact Or.inl ⟨_, rfl, rfl⟩
  · cases h1
    exact Or.inr (Or.inr ⟨rfl, _, rfl, Or.inl rfl⟩)
  · cases h1
    simp only
    rw [updateFrameMem_raw fh raw hh]
    exact Or.inr (Or.inl ⟨hh, rfl⟩)

theorem headers_type {incoming : Bytes} {fh : FrameHeader} (h : 9 ≤ incoming.length)
    (hf : buildFrameHeader (incoming.take 9) = .ok fh) (hh : frameTypeOf fh.type = some .headers) :
    incoming[3]? = some 1 := by
  rw [buildFrameHeader_eq _ (by rw [List.length_take]; omega)] at hf
  obtain rfl := Res.ok.inj hf
  have hv := List.find?_some hh
  simp only [FrameType.value, beq_iff_eq, List.getElem_take] at hv
  rw [List.getElem?_eq_getElem (by omega), ← hv]

/-- How `receive_frame` ends when memory can run out: as without, as an undecodable HEADERS frame, or
with `std::bad_alloc` at one of four places. -/
theorem receiveFrameMem_cases [Platform] (c : Client) (m : Memory) :
    (∃ r, (c.receiveFrameMem m).1 = .res r ∧ c.receiveFrame = (r, (c.receiveFrameMem m).2.1)) ∨
    (frameLength c.conn.incoming ≤ c.conn.incoming.length ∧ c.conn.incoming[3]? = some 1 ∧
      (c.receiveFrameMem m).1 = .res (.ub .nullDeref)) ∨
    ((c.receiveFrameMem m).1 = .badAlloc ∧
      ((c.receiveFrameMem m).2.1 = c ∨
       (∃ e, c.receiveFrame = (.throw e, (c.receiveFrameMem m).2.1)) ∨
       (∃ reads, reads <:+ c.conn.reads ∧ 9 ≤ c.conn.incoming.length ∧ 0 < announced c.conn.incoming ∧
        (c.receiveFrameMem m).2.1 = c.consumed reads 9) ∨
       ∃ reads t fh, reads <:+ c.conn.reads ∧ frameLength c.conn.incoming ≤ c.conn.incoming.length ∧
        (c.receiveFrameMem m).2.1 =
          { c.consumed reads (frameLength c.conn.incoming) with responseTable := t } ∧
        buildFrameHeader (c.conn.incoming.take 9) = .ok fh ∧
        (t = c.responseTable ∨
          ∃ f, buildFrame fh (payloadAt c.conn.incoming) c.responseTable = .ok f ∧
            StopsInside f.blockOf c.responseTable t))) := by
  obtain ⟨⟨incoming, sent, reads, writes⟩, rt, st⟩ := c
  simp only
  unfold Client.receiveFrameMem Client.receiveFrame Client.receiveRawData Conn.read Client.consumed
  simp only
  cases m.next.1
  · exact Or.inr (Or.inr ⟨rfl, Or.inl rfl⟩)
  simp only [if_true]
  obtain ⟨r1, hs1, h | ⟨k, h1, h2, h3⟩⟩ := readLoop_spec reads incoming 9
  · obtain ⟨h1, h2, h3⟩ := h
    rw [h3]
    simp only
    obtain ⟨fh, hf, hl⟩ := announced_eq h1
    rw [hf]
    simp only
    rw [hl]
    by_cases h0 : beValue (incoming.take 3) > 0
    · rw [if_pos h0, if_pos h0]
      cases m.next.2.next.1
      · exact Or.inr (Or.inr ⟨rfl, Or.inr (Or.inr (Or.inl ⟨r1, hs1, h1, h0, rfl⟩))⟩)
      simp only [if_true]
      obtain ⟨r2, hs2, h | ⟨k, g1, g2, g3⟩⟩ :=
        readLoop_spec r1 (incoming.drop 9) (beValue (incoming.take 3))
      · obtain ⟨g1, -, g3⟩ := h
        rw [g3]
        simp only
        rcases processFrameMem_cases
          ⟨⟨(incoming.drop 9).drop (beValue (incoming.take 3)), sent, r2, writes⟩, rt, st⟩ fh
          ((incoming.drop 9).take (beValue (incoming.take 3))) m.next.2.next.2 with h4 | ⟨hh, h4⟩ | ⟨h4, t, h5, h6⟩
        · exact Or.inl h4
        · refine Or.inr (Or.inl ⟨?_, headers_type h1 hf hh, h4⟩)
          rw [List.length_drop] at g1
          show 9 + beValue (incoming.take 3) ≤ _
          omega
        · refine Or.inr (Or.inr
            ⟨h4, Or.inr (Or.inr (Or.inr ⟨r2, t, fh, hs2.trans hs1, ?_, ?_, rfl, h6⟩))⟩)
          · rw [List.length_drop] at g1
            show 9 + beValue (incoming.take 3) ≤ _
            omega
          · rw [h5, List.drop_drop]; rfl
      · rw [g3]
        simp only
        rcases raise_cases (α := Frame) (.throw .runtimeError) m.next.2.next.2 with h4 | ⟨h4, -⟩
        · exact Or.inl ⟨_, h4, rfl⟩
        · exact Or.inr (Or.inr ⟨h4, Or.inr (Or.inl ⟨_, rfl⟩)⟩)
    · rw [if_neg h0, if_neg h0]
      have h0' : beValue (incoming.take 3) = 0 := by omega
      rcases processFrameMem_cases ⟨⟨incoming.drop 9, sent, r1, writes⟩, rt, st⟩ fh [] m.next.2
        with h4 | ⟨hh, h4⟩ | ⟨h4, t, h5, h6⟩
      · exact Or.inl h4
      · refine Or.inr (Or.inl ⟨?_, headers_type h1 hf hh, h4⟩)
        show 9 + beValue (incoming.take 3) ≤ _
        omega
      · refine Or.inr (Or.inr ⟨h4, Or.inr (Or.inr (Or.inr ⟨r1, t, fh, hs1, ?_, ?_, rfl, ?_⟩))⟩)
        · show 9 + beValue (incoming.take 3) ≤ _
          omega
        · rw [h5]
          show _ = Client.mk ⟨incoming.drop (9 + beValue (incoming.take 3)), _, _, _⟩ _ _
          rw [h0']
        · unfold payloadAt announced
          rw [h0', List.take_zero]
          exact h6
  · rw [h3]
    simp only
    rcases raise_cases (α := Frame) (.throw .runtimeError) m.next.2 with h4 | ⟨h4, -⟩
    · exact Or.inl ⟨_, h4, rfl⟩
    · exact Or.inr (Or.inr ⟨h4, Or.inr (Or.inl ⟨_, rfl⟩)⟩)

theorem updateEntryMem_nil (e : HeaderEntry) (t : DynamicTable) :
    (updateEntryMem e t []).1 ≠ .badAlloc ∧ (updateEntryMem e t []).2.2 = [] := by
  unfold updateEntryMem
  simp only [Memory.next, raise_nil, if_true, pushMem_true]
  by_cases h1 : e.pfx = .incrementalIndexing
  · rw [if_pos h1]
    cases e.getHeader with
    | ok h =>
        simp only
        cases t.push h <;> exact ⟨nofun, trivial⟩
    | throw x => exact ⟨nofun, rfl⟩
    | ub k => exact ⟨nofun, rfl⟩
    | diverge => exact ⟨nofun, rfl⟩
  · rw [if_neg h1]
    by_cases h2 : e.pfx = .sizeUpdate
    · rw [if_pos h2]
      cases e.getMaxSize with
      | ok n =>
          simp only
          cases t.updateTableSize n <;> exact ⟨nofun, rfl⟩
      | throw x => exact ⟨nofun, rfl⟩
      | ub k => exact ⟨nofun, rfl⟩
      | diverge => exact ⟨nofun, rfl⟩
    · rw [if_neg h2]
      exact ⟨nofun, rfl⟩

theorem updateTableMem_nil (block : HeaderBlock) (t : DynamicTable) :
    (updateTableMem block t []).1 ≠ .badAlloc ∧ (updateTableMem block t []).2.2 = [] := by
  induction block generalizing t with
  | nil => exact ⟨nofun, rfl⟩
  | cons e es ih =>
      unfold updateTableMem
      have h := updateEntryMem_nil e t
      rcases hu : updateEntryMem e t [] with ⟨r, t', m'⟩
      rw [hu] at h
      obtain ⟨h1, h2⟩ := h
      simp only at h1 h2
      subst h2
      rcases r with (_ | _ | _ | _) | _
      · exact ih t'
      · exact ⟨nofun, rfl⟩
      · exact ⟨nofun, rfl⟩
      · exact ⟨nofun, rfl⟩
      · exact absurd rfl h1

theorem copyBlockMem_nil (block : HeaderBlock) (t : DynamicTable) :
    (copyBlockMem block t []).1 ≠ .badAlloc ∧ (copyBlockMem block t []).2.2 = [] := by
  unfold copyBlockMem
  split
  · exact ⟨nofun, rfl⟩
  · exact updateTableMem_nil _ _

theorem updateFrameMem_nil (f : Frame) (t : DynamicTable) :
    (updateFrameMem f t []).1 ≠ .badAlloc ∧ (updateFrameMem f t []).2.2 = [] := by
  unfold updateFrameMem
  split
  · exact copyBlockMem_nil _ _
  · exact copyBlockMem_nil _ _
  · exact copyBlockMem_nil _ _
  · have : ∀ p : Prop, p ∨ (Memory.next []).1 = true := fun _ => Or.inr rfl
    rw [if_pos (this _)]
    exact ⟨nofun, rfl⟩
  · exact ⟨nofun, rfl⟩

theorem buildFrameMem_nil [Platform] (fh : FrameHeader) (raw : Bytes) (t : DynamicTable) :
    buildFrameMem fh raw t [] = (.res (buildFrame fh raw t), []) := by
  unfold buildFrameMem
  by_cases hh : frameTypeOf fh.type = some .headers
  · rw [if_pos hh]
    have hb : buildFrame fh raw t = buildHeadersFrame fh raw t := by
      unfold buildFrame; rw [hh]
    rw [hb]
    unfold buildHeadersFrame buildHeadersFrameMem
    simp only [Memory.next, if_true]
    cases HeadersFrame.ofRaw fh raw t <;> rfl
  · rw [if_neg hh]
    rfl

theorem processFrameMem_nil [Platform] (c : Client) (fh : FrameHeader) (raw : Bytes) :
    (c.processFrameMem fh raw []).1 = .res (c.processFrame fh raw).1 := by
  unfold Client.processFrameMem Client.processFrame
  rw [buildFrameMem_nil]
  cases buildFrame fh raw c.responseTable with
  | ok f =>
      simp only
      have h := updateFrameMem_nil f c.responseTable
      have h3 := updateFrameMem_cases f c.responseTable []
      rcases hu : updateFrameMem f c.responseTable [] with ⟨r, t', m'⟩
      rw [hu] at h h3
      rcases h3 with ⟨r', h4, h5⟩ | ⟨h4, -⟩
      · cases h4
        simp only at h5
        rw [h5]
        rcases r' with _ | _ | _ | _ <;> rfl
      · exact absurd h4 h.1
  | throw x => rfl
  | ub k => rfl
  | diverge => rfl

theorem receiveFrameMem_nil [Platform] (c : Client) :
    (c.receiveFrameMem []).1 = .res c.receiveFrame.1 := by
  unfold Client.receiveFrameMem Client.receiveFrame
  simp only [Memory.next, raise_nil, if_true]
  rcases c.receiveRawData 9 with ⟨_ | _ | _ | _, c1⟩
  · simp only
    rename_i rawFh
    cases buildFrameHeader rawFh with
    | ok fh =>
        simp only
        by_cases h0 : fh.length.toNat > 0
        · rw [if_pos h0, if_pos h0]
          rcases c1.receiveRawData fh.length.toNat with ⟨_ | _ | _ | _, c2⟩
          · exact processFrameMem_nil _ _ _
          · rfl
          · rfl
          · rfl
        · rw [if_neg h0, if_neg h0]
          exact processFrameMem_nil _ _ _
    | throw x => rfl
    | ub k => rfl
    | diverge => rfl
  · rfl
  · rfl
  · rfl

/-- C139, the part that holds of calls that do not end with `std::bad_alloc`: such a call ends as it does
where memory never runs out, whatever the memory, unless it is `receive_frame` and the frame is HEADERS.
With enough memory no call ends with `std::bad_alloc`. Missing: HEADERS, see `C139_headers_violated`. -/
theorem C139_same_partial [Platform] (op : Op) (c : Client) :
    (∀ m r, (op.runMem c m).1 = .res r → op.run c = (r, (op.runMem c m).2.1) ∨
      (op = .receiveFrame ∧ frameLength c.conn.incoming ≤ c.conn.incoming.length ∧
        c.conn.incoming[3]? = some 1 ∧ r = .ub .nullDeref)) ∧
    (op.runMem c []).1 = .res (op.run c).1 := by
  have key : op ≠ .receiveFrame →
      ∀ m r, (op.runMem c m).1 = .res r → op.run c = (r, (op.runMem c m).2.1) := by
    intro hne m r h
    cases op with
    | sendPreface =>
        change (c.sendPrefaceMem m).1 = _ at h
        show c.sendConnectionPreface = (r, (c.sendPrefaceMem m).2.1)
        unfold Client.sendPrefaceMem at h ⊢
        split at h
        · rename_i hm
          rw [if_pos hm]
          unfold Client.sendRawDataMem at h ⊢
          rcases raise_cases (c.sendRawData (bstr "PRI * HTTP/2.0\r\n\r\nSM\r\n\r\n")).1 m.next.2
            with h1 | ⟨h1, -⟩
          · obtain rfl := Ended.res.inj (h1.symm.trans h)
            rfl
          · cases h1.symm.trans h
        · cases h
    | sendRaw data =>
        unfold Op.runMem Client.sendRawDataMem at h ⊢
        rcases raise_cases (c.sendRawData data).1 m with h1 | ⟨h1, -⟩
        · obtain rfl := Ended.res.inj (h1.symm.trans h)
          rfl
        · cases h1.symm.trans h
    | receiveRaw n =>
        unfold Op.runMem Client.receiveRawDataMem at h ⊢
        unfold Op.run
        rcases raise_cases (c.receiveRawData n).1 m with h1 | ⟨h1, -⟩
        · simp only [h1] at h ⊢
          obtain rfl := Ended.res.inj h
          rfl
        · simp only [h1] at h
          cases h
    | sendFrame f =>
        change (c.sendFrameMem f m).1 = _ at h
        show c.sendFrame f = (r, (c.sendFrameMem f m).2.1)
        unfold Client.sendFrameMem at h ⊢
        unfold Client.sendFrame
        split at h
        · rename_i hm
          rw [if_pos hm]
          cases hf : f.serialize with
          | ok raw =>
              rw [hf] at h
              simp only at h ⊢
              unfold Client.sendRawDataMem at h ⊢
              rcases raise_cases (c.sendRawData raw).1 m.next.2 with h1 | ⟨h1, -⟩
              · obtain rfl := Ended.res.inj (h1.symm.trans h)
                rfl
              · cases h1.symm.trans h
          | throw x => rw [hf] at h; cases h; rfl
          | ub k => rw [hf] at h; cases h; rfl
          | diverge => rw [hf] at h; cases h; rfl
        · cases h
    | receiveFrame => exact absurd rfl hne
    | updateRequestBlock b =>
        unfold Op.runMem Client.updateRequestTableMem at h ⊢
        unfold Op.run Client.updateRequestDynamicTable
        rcases updateTableMem_cases b c.requestTable m with ⟨r', h1, h2⟩ | ⟨h1, -⟩
        · obtain rfl := Ended.res.inj (h1.symm.trans h)
          simp only [h2]
        · cases h1.symm.trans h
    | updateRequestSize n =>
        unfold Op.runMem at h ⊢
        obtain rfl := Ended.res.inj h
        rfl
  constructor
  · intro m r h
    by_cases hop : op = .receiveFrame
    · subst hop
      have hc := receiveFrameMem_cases c m
      simp only [Op.runMem] at h ⊢
      simp only [Op.run]
      rcases hr : c.receiveFrameMem m with ⟨_ | _, c', m'⟩
      · rw [hr] at hc h
        rcases hc with ⟨r', h1, h2⟩ | ⟨h2, h3, h1⟩ | ⟨h1, -⟩
        · cases h1
          simp only at h2 h ⊢
          obtain rfl := Ended.res.inj h
          rw [h2]
          exact Or.inl rfl
        · cases h1
          obtain rfl := Ended.res.inj h
          exact Or.inr ⟨trivial, h2, h3, rfl⟩
        · cases h1
      · rw [hr] at h; cases h
    · exact Or.inl (key hop m r h)
  by_cases hop : op = .receiveFrame
  · subst hop
    have h := receiveFrameMem_nil c
    simp only [Op.runMem, Op.run]
    rcases hr : c.receiveFrameMem [] with ⟨_ | _, c', m'⟩
    · rw [hr] at h
      obtain rfl := Ended.res.inj h
      rfl
    · rw [hr] at h; cases h
  have hne : (op.runMem c []).1 ≠ .badAlloc := by
    cases op with
    | sendPreface =>
        unfold Op.runMem Client.sendPrefaceMem Client.sendRawDataMem
        simp only [Memory.next, if_true, raise_nil]
        exact nofun
    | sendRaw data =>
        unfold Op.runMem Client.sendRawDataMem
        simp only [raise_nil]
        exact nofun
    | receiveRaw n =>
        unfold Op.runMem Client.receiveRawDataMem
        simp only [raise_nil]
        exact nofun
    | sendFrame f =>
        unfold Op.runMem Client.sendFrameMem Client.sendRawDataMem
        simp only [Memory.next, if_true, raise_nil]
        cases f.serialize <;> exact nofun
    | receiveFrame => exact absurd rfl hop
    | updateRequestBlock b => exact (updateTableMem_nil b c.requestTable).1
    | updateRequestSize n => exact nofun
  cases hr : (op.runMem c []).1 with
  | res r => rw [key hop [] r hr]
  | badAlloc => exact absurd hr hne

/-- C139, the part that holds of sending, and of `receive_raw_data`: a call that ran out of memory has
done nothing, or it is one that would have thrown another exception, and has done what it does then.
Missing: `receive_frame` and `update_request_dynamic_table`, see below. -/
theorem C139_send_partial [Platform] (op : Op) (c : Client) (m : Memory)
    (hop : (∃ f, op = .sendFrame f) ∨ (∃ data, op = .sendRaw data) ∨ op = .sendPreface ∨
      ∃ n, op = .receiveRaw n)
    (h : (op.runMem c m).1 = .badAlloc) :
    (op.runMem c m).2.1 = c ∨ ∃ e, op.run c = (.throw e, (op.runMem c m).2.1) := by
  have raw : ∀ data m, (c.sendRawDataMem data m).1 = .badAlloc →
      ∃ e, c.sendRawData data = (.throw e, (c.sendRawDataMem data m).2.1) := by
    intro data m h
    unfold Client.sendRawDataMem at h ⊢
    rcases raise_cases (c.sendRawData data).1 m with h1 | ⟨-, e, h2⟩
    · cases h1.symm.trans h
    · exact ⟨e, Prod.ext h2 rfl⟩
  rcases hop with ⟨f, rfl⟩ | ⟨data, rfl⟩ | rfl | ⟨n, rfl⟩
  · change (c.sendFrameMem f m).1 = _ at h
    show (c.sendFrameMem f m).2.1 = c ∨ ∃ e, c.sendFrame f = (.throw e, (c.sendFrameMem f m).2.1)
    unfold Client.sendFrameMem at h ⊢
    unfold Client.sendFrame
    split
    · rename_i hm
      rw [if_pos hm] at h
      cases hf : f.serialize with
      | ok bytes => rw [hf] at h; exact Or.inr (raw bytes _ h)
      | throw x => rw [hf] at h; cases h
      | ub k => rw [hf] at h; cases h
      | diverge => rw [hf] at h; cases h
    · exact Or.inl rfl
  · exact Or.inr (raw data m h)
  · change (c.sendPrefaceMem m).1 = _ at h
    show (c.sendPrefaceMem m).2.1 = c ∨
      ∃ e, c.sendConnectionPreface = (.throw e, (c.sendPrefaceMem m).2.1)
    unfold Client.sendPrefaceMem at h ⊢
    unfold Client.sendConnectionPreface
    split
    · rename_i hm
      rw [if_pos hm] at h
      exact Or.inr (raw _ _ h)
    · exact Or.inl rfl
  · unfold Op.runMem Client.receiveRawDataMem at h ⊢
    unfold Op.run
    rcases raise_cases (c.receiveRawData n).1 m with h1 | ⟨h1, e, h2⟩
    · simp only [h1] at h
      cases h
    · simp only [h1]
      refine Or.inr ⟨e, ?_⟩
      rcases hr : c.receiveRawData n with ⟨r, c'⟩
      rw [hr] at h2
      simp only at h2
      subst h2
      rfl

/-- C139, exactly, for `receive_frame`: what it has done when it runs out of memory. It has done nothing;
or the transport failed, and it has done what it does then; or it has read the nine octets of the frame
header and not the payload; or it has read the frame, and then the table is as before, or a part of its
header block has had its effect. The request table and what was sent are as before in any case. Missing:
that the next call finds the beginning of a frame, and the table as before or as after the frame. -/
theorem C139_receive_partial [Platform] (c c' : Client) (m m' : Memory)
    (h : c.receiveFrameMem m = (.badAlloc, c', m')) :
    c' = c ∨ (∃ e, c.receiveFrame = (.throw e, c')) ∨
    (∃ reads, reads <:+ c.conn.reads ∧ 9 ≤ c.conn.incoming.length ∧ 0 < announced c.conn.incoming ∧
      c' = { c with conn := { c.conn with incoming := c.conn.incoming.drop 9, reads := reads } }) ∨
    ∃ reads t fh, reads <:+ c.conn.reads ∧ frameLength c.conn.incoming ≤ c.conn.incoming.length ∧
      c' = { c with
        conn := { c.conn with
          incoming := c.conn.incoming.drop (frameLength c.conn.incoming), reads := reads }
        responseTable := t } ∧
      buildFrameHeader (c.conn.incoming.take 9) = .ok fh ∧
      (t = c.responseTable ∨
        ∃ f, buildFrame fh (payloadAt c.conn.incoming) c.responseTable = .ok f ∧
          StopsInside f.blockOf c.responseTable t) := by
  have hc := receiveFrameMem_cases c m
  rw [h] at hc
  rcases hc with ⟨r, h1, -⟩ | ⟨-, -, h1⟩ | ⟨-, hc⟩
  · cases h1
  · cases h1
  · exact hc

/-- C139, exactly, for `update_request_dynamic_table`: when it runs out of memory, a part of the header
block has had its effect on the request table; nothing else has changed. Missing: that none of it or all
of it has. The variant with a size does not run out of memory. -/
theorem C139_report_partial (c c' : Client) (block : HeaderBlock) (m m' : Memory)
    (h : c.updateRequestTableMem block m = (.badAlloc, c', m')) :
    ∃ t, c' = { c with requestTable := t } ∧ StopsInside block c.requestTable t := by
  unfold Client.updateRequestTableMem at h
  rcases updateTableMem_cases block c.requestTable m with ⟨r, h1, -⟩ | ⟨-, h1⟩
  · have := congrArg Prod.fst h
    cases h1.symm.trans this
  · obtain rfl := congrArg (fun x => x.2.1) h
    exact ⟨_, rfl, h1⟩

/-! ### The tables over a session -/

/-- The size recorded is that of the entries and of the headers lost, and within the maximum. -/
structure Over (lost : List Header) (t : DynamicTable) : Prop where
  size : t.tableSize = total t.entries + total lost
  le : t.tableSize ≤ t.maxTableSize
  max : t.maxTableSize < 2 ^ 63

theorem Over.pushMem {lost : List Header} {t t' : DynamicTable} (ht : Over lost t) {h : Header}
    (hh : headerSize h < 2 ^ 63) :
    (t.pushMem h true = (.res (.ok ()), t') → Over lost t' ∧ t'.maxTableSize = t.maxTableSize) ∧
    (t.pushMem h false = (.badAlloc, t') → Over (h :: lost) t' ∧ t'.maxTableSize = t.maxTableSize) := by
  obtain ⟨h1, h2, h3⟩ := ht
  rw [pushMem_eq h1 h2 h3 h hh, pushMem_eq h1 h2 h3 h hh]
  by_cases hc : total lost + headerSize h ≤ t.maxTableSize
  · rw [if_pos hc, if_pos hc]
    have := takeFit_total (t.maxTableSize - (total lost + headerSize h)) t.entries
    simp only [if_true, Bool.false_eq_true, if_false]
    constructor
    · intro e
      obtain rfl := (Prod.mk.inj e).2
      exact ⟨⟨by simp only [total_cons]; omega, by simp only; omega, h3⟩, rfl⟩
    · intro e
      obtain rfl := (Prod.mk.inj e).2
      exact ⟨⟨by simp only [total_cons]; omega, by simp only; omega, h3⟩, rfl⟩
  · rw [if_neg hc, if_neg hc]
    exact ⟨nofun, nofun⟩

theorem Over.push {lost : List Header} {t t' : DynamicTable} (ht : Over lost t) {h : Header}
    (hh : headerSize h < 2 ^ 63) (hp : t.push h = .ok t') :
    Over lost t' ∧ t'.maxTableSize = t.maxTableSize := by
  refine (ht.pushMem (t' := t') hh).1 ?_
  rw [pushMem_true, hp]

theorem Over.setMax {lost : List Header} {t t' : DynamicTable} (ht : Over lost t) {n : Nat}
    (hn : n < 2 ^ 63) (hp : t.updateTableSize n = .ok t') : Over lost t' ∧ t'.maxTableSize = n := by
  obtain ⟨h1, h2, h3⟩ := ht
  rw [setMax_eq h1 h2 h3] at hp
  split at hp
  · obtain rfl := (Res.ok.inj hp).symm
    have := takeFit_total (n - total lost) t.entries
    exact ⟨⟨by simp only; omega, by simp only; omega, hn⟩, rfl⟩
  · cases hp

theorem Over.entry {lost : List Header} {e : HeaderEntry} {t t' : DynamicTable} {b : Nat} (ht : Over lost t)
    (he : EntrySmall e) (hm : t.maxTableSize ≤ b) (hb : ∀ n, e.entry = .maxSize n → n ≤ b)
    (h : updateDynamicTableEntry e t = .ok t') : Over lost t' ∧ t'.maxTableSize ≤ b := by
  obtain ⟨p, v⟩ := e
  unfold updateDynamicTableEntry HeaderEntry.getHeader HeaderEntry.getMaxSize at h
  simp only at h
  split at h
  · cases v with
    | header x =>
        have := ht.push (he.1 x rfl) h
        exact ⟨this.1, by omega⟩
    | maxSize n => cases h
  · split at h
    · cases v with
      | header x => cases h
      | maxSize n =>
          have := ht.setMax (he.2 n rfl) h
          exact ⟨this.1, by have := hb n rfl; omega⟩
    · obtain rfl := Res.ok.inj h
      exact ⟨ht, hm⟩

theorem Over.block {lost : List Header} {es : HeaderBlock} {t : DynamicTable} {b : Nat} (ht : Over lost t)
    (he : ∀ e ∈ es, EntrySmall e) (hm : t.maxTableSize ≤ b)
    (hb : ∀ e ∈ es, ∀ n, e.entry = .maxSize n → n ≤ b) :
    Over lost (updateDynamicTable es t).2 ∧ (updateDynamicTable es t).2.maxTableSize ≤ b := by
  induction es generalizing t with
  | nil => exact ⟨ht, hm⟩
  | cons e es ih =>
      unfold updateDynamicTable
      cases h : updateDynamicTableEntry e t with
      | ok t' =>
          have := ht.entry (he e (by simp)) hm (hb e (by simp)) h
          exact ih this.1 (fun x hx => he x (by simp [hx])) this.2 (fun x hx => hb x (by simp [hx]))
      | throw x => exact ⟨ht, hm⟩
      | ub k => exact ⟨ht, hm⟩
      | diverge => exact ⟨ht, hm⟩

theorem Over.stops {lost : List Header} {es : HeaderBlock} {t t' : DynamicTable} {b : Nat} (ht : Over lost t)
    (he : ∀ e ∈ es, EntrySmall e) (hm : t.maxTableSize ≤ b)
    (hb : ∀ e ∈ es, ∀ n, e.entry = .maxSize n → n ≤ b) (h : StopsInside es t t') :
    (Over lost t' ∨ ∃ x, Over (x :: lost) t') ∧ t'.maxTableSize ≤ b := by
  obtain ⟨done, e, rest, u, rfl, h1, h2⟩ := h
  have := ht.block (es := done) (fun x hx => he x (by simp [hx])) hm (fun x hx => hb x (by simp [hx]))
  rw [h1] at this
  rcases h2 with rfl | ⟨-, x, h3, h4⟩
  · exact ⟨Or.inl this.1, this.2⟩
  · have h5 := (this.1.pushMem (t' := t') ((he e (by simp)).1 x h3)).2 h4
    exact ⟨Or.inr ⟨x, h5.1⟩, by have h6 := h5.2; simp only at h6 this ⊢; omega⟩

theorem Over.decoded {lost : List Header} {n : Nat} (hn : n < 2 ^ 24) {t : DynamicTable} (ht : Over lost t)
    (hm : t.maxTableSize ≤ 2 ^ 32) {e : HeaderEntry} (h : DecodedEntry n t e) :
    EntrySmall e ∧ ∀ m, e.entry = .maxSize m → m ≤ 2 ^ 32 := by
  have h1 := ht.size
  have h2 := ht.le
  unfold total at h1
  refine ⟨⟨fun x hx => ?_, fun m hx => ?_⟩, fun m hx => ?_⟩
  · have := h.header x hx
    omega
  · have := h.size m hx
    omega
  · have := h.size m hx
    omega

theorem Over.built [Platform] {lost : List Header} {fh : FrameHeader} {raw : Bytes} {t : DynamicTable} {f : Frame}
    (hr : raw.length < 2 ^ 24) (ht : Over lost t) (hm : t.maxTableSize ≤ 2 ^ 32)
    (hb : buildFrame fh raw t = .ok f) :
    ∀ e ∈ f.blockOf, EntrySmall e ∧ ∀ m, e.entry = .maxSize m → m ≤ 2 ^ 32 := by
  have hbu := built_of_ok hb
  intro e he
  cases hbu with
  | headers h f hf => exact ht.decoded hr hm ((headers_entries hf).2 e he)
  | pushPromise h f hf => exact ht.decoded hr hm ((pushPromise_entries hf).2 e he)
  | continuation h f hf => exact ht.decoded hr hm ((continuation_entries hf).2 e he)
  | _ => cases he

theorem Over.processTable [Platform] {lost : List Header} {fh : FrameHeader} {raw : Bytes} {t : DynamicTable}
    (hr : raw.length < 2 ^ 24) (ht : Over lost t) (hm : t.maxTableSize ≤ 2 ^ 32) :
    Over lost (Mh2c.processTable fh raw t).2 ∧ (Mh2c.processTable fh raw t).2.maxTableSize ≤ 2 ^ 32 := by
  unfold Mh2c.processTable
  cases hb : buildFrame fh raw t with
  | throw e => exact ⟨ht, hm⟩
  | ub k => exact ⟨ht, hm⟩
  | diverge => exact ⟨ht, hm⟩
  | ok f =>
      have hs := ht.built hr hm hb
      have hbu := built_of_ok hb
      have key : Over lost (updateDynamicTableFrame f t).2 ∧
          (updateDynamicTableFrame f t).2.maxTableSize ≤ 2 ^ 32 := by
        rw [updateFrame_built hbu]
        cases hbu with
        | headers h f hf => exact ht.block (fun e he => (hs e he).1) hm (fun e he => (hs e he).2)
        | pushPromise h f hf => exact ht.block (fun e he => (hs e he).1) hm (fun e he => (hs e he).2)
        | continuation h f hf => exact ht.block (fun e he => (hs e he).1) hm (fun e he => (hs e he).2)
        | settings h p hp =>
            simp only
            split
            · rename_i size _
              have hlt := size.toNat_lt
              cases hq : t.updateTableSize size.toNat with
              | ok t' =>
                  have := ht.setMax (by omega) hq
                  exact ⟨this.1, by have := this.2; simp only; omega⟩
              | throw x => exact ⟨ht, hm⟩
              | ub k => exact ⟨ht, hm⟩
              | diverge => exact ⟨ht, hm⟩
            · exact ⟨ht, hm⟩
        | _ => exact ⟨ht, hm⟩
      simp only
      rcases hu : updateDynamicTableFrame f t with ⟨_ | _ | _ | _, t'⟩ <;> rw [hu] at key <;> exact key

theorem over_run [Platform] {lq ls : List Header} {c : Client} {op : Op} (hop : op.Small) (h1 : Over lq c.requestTable)
    (h2 : Over ls c.responseTable) (h3 : c.responseTable.maxTableSize ≤ 2 ^ 32) :
    Over lq (op.run c).2.requestTable ∧ Over ls (op.run c).2.responseTable ∧
      (op.run c).2.responseTable.maxTableSize ≤ 2 ^ 32 := by
  cases op with
  | sendPreface => exact ⟨h1, h2, h3⟩
  | sendRaw data => exact ⟨h1, h2, h3⟩
  | receiveRaw n => exact ⟨h1, h2, h3⟩
  | sendFrame f =>
      obtain ⟨e1, e2, -, -⟩ := C59_send c f
      show Over lq (c.sendFrame f).2.requestTable ∧ Over ls (c.sendFrame f).2.responseTable ∧
        (c.sendFrame f).2.responseTable.maxTableSize ≤ _
      rw [e1, e2]
      exact ⟨h1, h2, h3⟩
  | receiveFrame =>
      show Over lq c.receiveFrame.2.requestTable ∧ Over ls c.receiveFrame.2.responseTable ∧
        c.receiveFrame.2.responseTable.maxTableSize ≤ _
      rw [(C59_receive c).1]
      refine ⟨h1, ?_⟩
      obtain ⟨reads', -, ⟨k, -, -, h'⟩ | ⟨fh, -, -, -, -, h'⟩⟩ := receiveFrame_cases c
      · rw [h']; exact ⟨h2, h3⟩
      · rw [h', processFrame_eq]
        refine Over.processTable ?_ h2 h3
        have := take_beValue_lt (raw := c.conn.incoming) 3
        rw [List.length_take]
        omega
  | updateRequestBlock b =>
      obtain ⟨i1, -⟩ := h1.block (b := Max.max c.requestTable.maxTableSize (2 ^ 63))
        hop (le_max_left _ _) (fun e he n hn => by
          have := (hop e he).2 n hn
          exact le_trans (le_of_lt this) (le_max_right _ _))
      exact ⟨i1, h2, h3⟩
  | updateRequestSize n =>
      show Over lq (c.updateRequestTableSize n).2.requestTable ∧
        Over ls (c.updateRequestTableSize n).2.responseTable ∧
        (c.updateRequestTableSize n).2.responseTable.maxTableSize ≤ _
      unfold Client.updateRequestTableSize
      cases ht : c.requestTable.updateTableSize n with
      | ok t => exact ⟨(h1.setMax hop ht).1, h2, h3⟩
      | throw x => exact ⟨h1, h2, h3⟩
      | ub k => exact ⟨h1, h2, h3⟩
      | diverge => exact ⟨h1, h2, h3⟩

/-- A call that runs out of memory loses at most one header. -/
theorem over_runsOut [Platform] {lq ls : List Header} {c : Client} {op : Op} (m : Memory) (hop : op.Small)
    (h1 : Over lq c.requestTable) (h2 : Over ls c.responseTable)
    (h3 : c.responseTable.maxTableSize ≤ 2 ^ 32) (hr : (op.runMem c m).1 = .badAlloc) :
    ∃ lq' ls', lq'.length + ls'.length ≤ lq.length + ls.length + 1 ∧
      Over lq' (op.runMem c m).2.1.requestTable ∧ Over ls' (op.runMem c m).2.1.responseTable ∧
      (op.runMem c m).2.1.responseTable.maxTableSize ≤ 2 ^ 32 := by
  have hrun := over_run hop h1 h2 h3
  have easy : ((op.runMem c m).2.1 = c ∨ ∃ e, op.run c = (.throw e, (op.runMem c m).2.1)) →
      ∃ lq' ls', lq'.length + ls'.length ≤ lq.length + ls.length + 1 ∧
      Over lq' (op.runMem c m).2.1.requestTable ∧ Over ls' (op.runMem c m).2.1.responseTable ∧
      (op.runMem c m).2.1.responseTable.maxTableSize ≤ 2 ^ 32 := by
    rintro (h | ⟨e, h⟩)
    · rw [h]; exact ⟨lq, ls, by omega, h1, h2, h3⟩
    · rw [h] at hrun; exact ⟨lq, ls, by omega, hrun⟩
  cases op with
  | sendPreface => exact easy (C139_send_partial _ c m (by simp) hr)
  | sendRaw data => exact easy (C139_send_partial _ c m (by simp) hr)
  | receiveRaw n => exact easy (C139_send_partial _ c m (by simp) hr)
  | sendFrame f => exact easy (C139_send_partial _ c m (by simp) hr)
  | receiveFrame =>
      have e : (Op.runMem .receiveFrame c m).2.1 = (c.receiveFrameMem m).2.1 := by
        simp only [Op.runMem]
        rcases c.receiveFrameMem m with ⟨_ | _, c', m'⟩ <;> rfl
      have hb : (c.receiveFrameMem m).1 = .badAlloc := by
        simp only [Op.runMem] at hr
        rcases hc : c.receiveFrameMem m with ⟨_ | _, c', m'⟩
        · rw [hc] at hr; cases hr
        · rfl
      rw [e]
      rcases C139_receive_partial c _ m _ (Prod.ext hb (Prod.ext rfl rfl)) with
        h | ⟨x, h⟩ | ⟨reads, -, -, -, h⟩ | ⟨reads, t, fh, -, -, h, -, h4⟩
      · rw [h]; exact ⟨lq, ls, by omega, h1, h2, h3⟩
      · have e2 : (Op.run .receiveFrame c).2 = (c.receiveFrameMem m).2.1 := by
          simp only [Op.run]; rw [h]
        rw [e2] at hrun
        exact ⟨lq, ls, by omega, hrun⟩
      · rw [h]; exact ⟨lq, ls, by omega, h1, h2, h3⟩
      · rw [h]
        rcases h4 with rfl | ⟨f, h5, h6⟩
        · exact ⟨lq, ls, by omega, h1, h2, h3⟩
        · have hs := h2.built (by
            have := take_beValue_lt (raw := c.conn.incoming) 3
            unfold payloadAt announced
            rw [List.length_take]
            omega) h3 h5
          obtain ⟨i1 | ⟨x, i1⟩, i2⟩ := h2.stops (fun e he => (hs e he).1) h3 (fun e he => (hs e he).2) h6
          · exact ⟨lq, ls, by omega, h1, i1, i2⟩
          · exact ⟨lq, x :: ls, by rw [List.length_cons]; omega, h1, i1, i2⟩
  | updateRequestBlock b =>
      obtain ⟨t, h4, h5⟩ := C139_report_partial c _ b m _ (Prod.ext hr (Prod.ext rfl rfl))
      have e : (Op.runMem (.updateRequestBlock b) c m).2.1 = { c with requestTable := t } := h4
      rw [e]
      obtain ⟨i1 | ⟨x, i1⟩, -⟩ := h1.stops (b := Max.max c.requestTable.maxTableSize (2 ^ 63))
        hop (le_max_left _ _) (fun e he n hn => by
          have := (hop e he).2 n hn
          exact le_trans (le_of_lt this) (le_max_right _ _)) h5
      · exact ⟨lq, ls, by omega, i1, h2, h3⟩
      · exact ⟨x :: lq, ls, by rw [List.length_cons]; omega, i1, h2, h3⟩
  | updateRequestSize n => cases hr

/-- C139, exactly, what is left of C63: after every session in which memory may have run out at any time,
a table records the size of its entries and of certain headers that are not there, at most one for each
call that threw `std::bad_alloc`; and that is within the maximum, so it never holds more than was agreed.
Setting a size is defined if and only if the headers that are not there fit it. If no call ran out of
memory there are none. Missing: that there are none in any case (false of the code). -/
theorem C139_tables_partial [Platform] (conn : Conn) (ops : List Op) (n : Nat) (c : Client)
    (hsmall : ∀ op ∈ ops, op.Small) (h : ScarceSession (Client.new conn) ops n c) :
    ∃ lostRequest lostResponse : List Header, lostRequest.length + lostResponse.length ≤ n ∧
      (c.requestTable.tableSize = sizes c.requestTable.entries + sizes lostRequest ∧
        c.requestTable.tableSize ≤ c.requestTable.maxTableSize ∧
        ∀ size, (c.updateRequestTableSize size).1 =
          if sizes lostRequest ≤ size then .ok () else .ub .emptyBack) ∧
      c.responseTable.tableSize = sizes c.responseTable.entries + sizes lostResponse ∧
        c.responseTable.tableSize ≤ c.responseTable.maxTableSize ∧
        ∀ size, (∃ t, c.responseTable.updateTableSize size = .ok t) ∧ sizes lostResponse ≤ size ∨
          c.responseTable.updateTableSize size = .ub .emptyBack ∧ size < sizes lostResponse := by
  have key : ∀ {c c' : Client} {ops : List Op} {n : Nat}, ScarceSession c ops n c' →
      (∀ op ∈ ops, op.Small) → ∀ lq ls : List Header,
      Over lq c.requestTable → Over ls c.responseTable → c.responseTable.maxTableSize ≤ 2 ^ 32 →
      ∃ lq' ls', lq'.length + ls'.length ≤ lq.length + ls.length + n ∧
        Over lq' c'.requestTable ∧ Over ls' c'.responseTable := by
    intro c c' ops n h
    induction h with
    | nil c => intro _ lq ls h1 h2 _; exact ⟨lq, ls, by omega, h1, h2⟩
    | ends c op m ops n r c' hr hs _ ih =>
        intro hall lq ls h1 h2 h3
        have hrun := over_run (hall op (by simp)) h1 h2 h3
        rcases (C139_same_partial op c).1 m r hr with h | ⟨-, -, -, rfl⟩
        · rw [h] at hrun
          exact ih (fun o ho => hall o (by simp [ho])) lq ls hrun.1 hrun.2.1 hrun.2.2
        · exact absurd hs (by exact nofun)
    | runsOut c op m ops n c' hr _ ih =>
        intro hall lq ls h1 h2 h3
        obtain ⟨lq', ls', i0, i1, i2, i3⟩ := over_runsOut m (hall op (by simp)) h1 h2 h3 hr
        obtain ⟨lq2, ls2, j0, j1, j2⟩ := ih (fun o ho => hall o (by simp [ho])) lq' ls' i1 i2 i3
        exact ⟨lq2, ls2, by omega, j1, j2⟩
  have h0 : Over [] DynamicTable.default := ⟨rfl, Nat.zero_le _, by show 4096 < _; norm_num⟩
  obtain ⟨lq, ls, i0, i1, i2⟩ := key h hsmall [] [] h0 h0 (by show 4096 ≤ _; norm_num)
  refine ⟨lq, ls, by simpa using i0, ⟨i1.size, i1.le, fun size => ?_⟩, i2.size, i2.le, fun size => ?_⟩
  · unfold Client.updateRequestTableSize
    rw [setMax_eq i1.size i1.le i1.max, sizes_eq]
    split <;> rename_i hc
    · split at hc
      · rw [if_pos (by assumption)]
      · cases hc
    · split at hc
      · cases hc
      · cases hc
    · split at hc
      · cases hc
      · cases hc; rw [if_neg (by assumption)]
    · split at hc
      · cases hc
      · cases hc
  · rw [setMax_eq i2.size i2.le i2.max, sizes_eq]
    split
    · exact Or.inl ⟨⟨_, rfl⟩, by assumption⟩
    · exact Or.inr ⟨rfl, by omega⟩

/-- C139 is false of the code: when there is no memory for the payload of a frame, the payload is left in
the stream, and from then on the client reads it as frames, whatever it is: it is in the state of a
client to which the server has sent the payload itself. The length is the server's choice, and so is the
payload, or that of whoever wrote what the server sends as DATA. -/
theorem C139_payload_violated [Platform] (c : Client) (type flags : UInt8) (stream : UInt32)
    (payload rest : Bytes) (hp : payload ≠ []) (hl : payload.length < 2 ^ 24)
    (hs : stream.toNat < 2 ^ 31)
    (hi : c.conn.incoming = frameOctets type flags stream.toNat payload ++ rest)
    (hw : Willing c.conn.reads 9) :
    ∃ reads, reads <:+ c.conn.reads ∧ c.receiveFrameMem [true, false] =
      (.badAlloc, { c with conn := { c.conn with incoming := payload ++ rest, reads := reads } }, []) := by
  obtain ⟨⟨incoming, sent, reads, writes⟩, rt, st⟩ := c
  simp only at hi hw ⊢
  obtain ⟨h1, h2, h3, h4, h5⟩ := front_frame type flags stream payload rest hl hs
  rw [← hi] at h2 h3 h4 h5
  have hlen : 9 ≤ incoming.length := by rw [hi, List.length_append, h1]; omega
  obtain ⟨j, -, e1⟩ := readLoop_progress reads incoming 9 hw.2 hw.1 (by omega) hlen
  refine ⟨reads.drop j, List.drop_suffix _ _, ?_⟩
  unfold Client.receiveFrameMem Client.receiveRawData Conn.read
  simp only [Memory.next, if_true]
  rw [e1]
  simp only
  rw [h3]
  have hpos : (castToFhLength payload.length).toNat > 0 := by
    rw [castToFhLength, UInt32.toNat_ofNat']
    have := List.length_pos_iff.2 hp
    omega
  simp only [hpos, if_true, Bool.false_eq_true, if_false]
  have hd : incoming.drop 9 = payload ++ rest := by
    rw [hi]
    unfold frameOctets
    rw [List.append_assoc]
    exact List.drop_left' (by simp)
  rw [hd]

attribute [local instance] x86 in
/-- Non-vacuity of `C139_payload_violated`: the server sends DATA in which there is a GOAWAY frame. There
is no memory for the payload, and the next call delivers GOAWAY. -/
example :
    let inner := frameOctets 7 0 0 [0, 0, 0, 0, 0, 0, 0, 2]
    let c : Client := ⟨⟨frameOctets 0 1 1 inner, [], [9, 9, 8], []⟩, .default, .default⟩
    Willing [9, 9, 9, 9, 9, 9, 9, 9, 9] 9 ∧
    (c.receiveFrameMem [true, false]).1 = .badAlloc ∧
    (match (c.receiveFrameMem [true, false]).2.1.receiveFrame.1 with
      | .ok (.goaway f) => f.header.type == 7
      | _ => false) = true := by
  decide +kernel

/-- C139 is false of the code: whenever memory runs out while a HEADERS frame is decoded, whatever is in
it, `receive_frame` does not throw: it is undefined behaviour. `std::bad_alloc` is caught as if the frame
could not be decoded, a raw frame is made, and a null pointer is dereferenced. -/
theorem C139_headers_violated [Platform] (c : Client) (flags : UInt8) (stream : UInt32)
    (payload rest : Bytes) (hp : payload ≠ []) (hl : payload.length < 2 ^ 24)
    (hs : stream.toNat < 2 ^ 31)
    (hi : c.conn.incoming = frameOctets 1 flags stream.toNat payload ++ rest)
    (hw : Willing c.conn.reads (9 + payload.length)) :
    (c.receiveFrameMem [true, true, false]).1 = .res (.ub .nullDeref) := by
  obtain ⟨⟨incoming, sent, reads, writes⟩, rt, st⟩ := c
  simp only at hi hw
  obtain ⟨h1, h2, h3, h4, h5⟩ := front_frame 1 flags stream payload rest hl hs
  rw [← hi] at h2 h3 h4 h5
  have hlen : 9 + payload.length ≤ incoming.length := by rw [hi, List.length_append, h1]; omega
  obtain ⟨hw1, hw2⟩ := hw
  obtain ⟨j, hj, e1⟩ := readLoop_progress reads incoming 9
    (fun r hr => hw2 r (List.take_subset_take_left _ (by omega) hr)) (by omega) (by omega) (by omega)
  obtain ⟨j2, -, e2⟩ := readLoop_progress (reads.drop j) (incoming.drop 9) payload.length
    (fun r hr => hw2 r (by
      rw [List.take_drop] at hr
      exact List.take_subset_take_left _ (by omega) (List.mem_of_mem_drop hr)))
    (by rw [List.length_drop]; omega) (by omega) (by rw [List.length_drop]; omega)
  have hn : (castToFhLength payload.length).toNat = payload.length := by
    rw [castToFhLength, UInt32.toNat_ofNat']
    omega
  have hpos := List.length_pos_iff.2 hp
  unfold Client.receiveFrameMem Client.receiveRawData Conn.read
  simp only [Memory.next, if_true]
  rw [e1]
  simp only
  rw [h3]
  simp only
  rw [hn, if_pos hpos, e2]
  simp only
  unfold Client.processFrameMem buildFrameMem buildHeadersFrameMem
  simp only [Memory.next, Bool.false_eq_true, if_false, if_true]
  rw [if_pos (by rfl)]
  simp only
  rw [updateFrameMem_raw _ _ (by rfl)]

attribute [local instance] x86 in
/-- Non-vacuity of `C139_headers_violated`: the answer to a request is one octet, `:status: 200`. With
memory it is received. -/
example :
    let c : Client := ⟨⟨frameOctets 1 4 1 [0x88], [], [9, 1, 1, 1, 1, 1, 1, 1, 1, 1], []⟩, .default, .default⟩
    Willing c.conn.reads (9 + 1) ∧ c.receiveFrame.1.Safe ∧
    (c.receiveFrameMem [true, true, false]).1 = .res (.ub .nullDeref) := by
  decide +kernel

/-- C139 is false of the code: whenever there is no memory to insert a header into the request table,
reporting the header once more does not help: the table then holds it, and it is small enough, but

* setting the size 0, which every server may ask for, is undefined behaviour;
* so is reporting a header that fits the table, but not together with the one that was not inserted. -/
theorem C139_report_violated (c : Client) (ha : Accounted c.requestTable)
    (hm : c.requestTable.maxTableSize < 2 ^ 63) (h : Header)
    (hfit : (h.1.length + h.2.length + 32) + (h.1.length + h.2.length + 32) ≤
      c.requestTable.maxTableSize) :
    ∃ c1 c2, c.updateRequestTableMem [⟨.incrementalIndexing, .header h⟩] [true, false] =
        (.badAlloc, c1, []) ∧
      c1.updateRequestDynamicTable [⟨.incrementalIndexing, .header h⟩] = (.ok (), c2) ∧
      c2.requestTable.entries.head? = some h ∧
      (c2.updateRequestTableSize 0).1 = .ub .emptyBack ∧
      ∀ next : Header, next.1.length + next.2.length + 32 ≤ c.requestTable.maxTableSize →
        c.requestTable.maxTableSize <
          (h.1.length + h.2.length + 32) + (next.1.length + next.2.length + 32) →
        (c2.updateRequestDynamicTable [⟨.incrementalIndexing, .header next⟩]).1 = .ub .emptyBack := by
  obtain ⟨conn, t, rt⟩ := c
  simp only at ha hm hfit ⊢
  have g1 : t.tableSize = total t.entries + 0 := ha.1
  have hsz : headerSize h = h.1.length + h.2.length + 32 := rfl
  have p1 := pushMem_eq g1 ha.2 hm h (by omega) false
  rw [if_pos (by omega)] at p1
  simp only [Bool.false_eq_true, if_false, Nat.zero_add] at p1
  generalize hes : takeFit (t.maxTableSize - headerSize h) t.entries = es at p1
  have hes' := takeFit_total (t.maxTableSize - headerSize h) t.entries
  rw [hes] at hes'
  have p2 := pushMem_eq (t := ⟨es, headerSize h + total es, t.maxTableSize⟩) (lost := headerSize h)
    (Nat.add_comm _ _) (by simp only; omega) hm h (by omega) true
  rw [if_pos (by simp only; omega)] at p2
  simp only [if_true] at p2
  generalize hfs : takeFit (t.maxTableSize - (headerSize h + headerSize h)) es = fs at p2
  have hfs' := takeFit_total (t.maxTableSize - (headerSize h + headerSize h)) es
  rw [hfs] at hfs'
  have i1 : (DynamicTable.mk (h :: fs) (headerSize h + headerSize h + total fs) t.maxTableSize).tableSize =
      total (h :: fs) + headerSize h := by rw [total_cons]; simp only; omega
  have i2 : (DynamicTable.mk (h :: fs) (headerSize h + headerSize h + total fs) t.maxTableSize).tableSize ≤
      t.maxTableSize := by simp only; omega
  refine ⟨⟨conn, ⟨es, headerSize h + total es, t.maxTableSize⟩, rt⟩,
    ⟨conn, ⟨h :: fs, headerSize h + headerSize h + total fs, t.maxTableSize⟩, rt⟩, ?_, ?_, rfl, ?_,
    fun next hn hbig => ?_⟩
  · unfold Client.updateRequestTableMem updateTableMem updateEntryMem
    simp only [Memory.next, if_true, HeaderEntry.getHeader, p1]
  · unfold Client.updateRequestDynamicTable updateDynamicTable updateDynamicTableEntry
    rw [pushMem_true] at p2
    cases hq : (DynamicTable.mk es (headerSize h + total es) t.maxTableSize).push h with
    | ok t' =>
        rw [hq] at p2
        obtain rfl := (Prod.mk.inj p2).2
        show (let (r, t) := match (DynamicTable.mk es (headerSize h + total es) t.maxTableSize).push h with
          | .ok t' => updateDynamicTable [] t'
          | .throw x => (Res.throw x, _)
          | .ub k => (Res.ub k, _)
          | .diverge => (Res.diverge, _)
          (r, Client.mk conn t rt)) = _
        rw [hq]
        rfl
    | throw x => rw [hq] at p2; cases p2
    | ub k => rw [hq] at p2; cases p2
    | diverge => rw [hq] at p2; cases p2
  · unfold Client.updateRequestTableSize
    simp only
    rw [setMax_eq i1 i2 hm, if_neg (by omega)]
  · have p3 := pushMem_eq i1 i2 hm next (by show next.1.length + next.2.length + 32 < _; omega) true
    rw [if_neg (by
      show ¬ headerSize h + (next.1.length + next.2.length + 32) ≤ t.maxTableSize; omega),
      pushMem_true] at p3
    unfold Client.updateRequestDynamicTable updateDynamicTable updateDynamicTableEntry
    cases hq : (DynamicTable.mk (h :: fs) (headerSize h + headerSize h + total fs) t.maxTableSize).push
        next with
    | ok t' => rw [hq] at p3; cases p3
    | throw x => rw [hq] at p3; cases p3
    | diverge => rw [hq] at p3; cases p3
    | ub k =>
        rw [hq] at p3
        cases p3
        show (match (DynamicTable.mk (h :: fs) (headerSize h + headerSize h + total fs)
            t.maxTableSize).push next with
          | .ok t' => updateDynamicTable [] t'
          | .throw x => (Res.throw x, _)
          | .ub k => (Res.ub k, _)
          | .diverge => (Res.diverge, _)).1 = _
        rw [hq]

/-- Non-vacuity of `C139_report_violated`: a new client and the header `a: 1`. -/
example : Accounted (Client.new ⟨[], [], [], []⟩).requestTable ∧
    (1 + 1 + 32) + (1 + 1 + 32) ≤ (Client.new ⟨[], [], [], []⟩).requestTable.maxTableSize :=
  ⟨⟨rfl, by decide⟩, by decide⟩

/-- C139 is false of the code: a server sends HEADERS with a header to be indexed and then SETTINGS with a
header table size of 0. If there is no memory to insert the header, the second frame is undefined
behaviour. With memory both are received. -/
theorem C139_settings_violated [P : Platform] : ∃ conn c1 m,
    conn.incoming = frameOctets 1 4 1 [0x40, 1, 107, 1, 118] ++
      frameOctets 4 0 0 [0, 1, 0, 0, 0, 0] ∧
    (Client.new conn).receiveFrameMem m = (.badAlloc, c1, []) ∧
    c1.receiveFrame.1 = .ub .emptyBack ∧
    (Client.new conn).receiveFrame.1.Safe ∧
    (Client.new conn).receiveFrame.2.receiveFrame.1.Safe := by
  refine ⟨⟨frameOctets 1 4 1 [0x40, 1, 107, 1, 118] ++ frameOctets 4 0 0 [0, 1, 0, 0, 0, 0], [],
    [9, 5, 9, 6], []⟩, ⟨⟨frameOctets 4 0 0 [0, 1, 0, 0, 0, 0], [], [9, 6], []⟩, .default,
    ⟨[], 34, 4096⟩⟩, [true, true, true, true, true, false], rfl, ?_⟩
  rcases P with ⟨_ | _, _ | _⟩ <;> decide +kernel

attribute [local instance] x86 in
/-- Non-vacuity of `C139_receive_partial`, `C139_send_partial` and `C139_report_partial`: each of the
places where memory can run out is reached. -/
example :
    let c : Client := ⟨⟨frameOctets 1 4 1 [0x40, 1, 107, 1, 118, 0x40, 1, 108, 1, 119], [],
      [9, 10], [20, 0]⟩, .default, .default⟩
    let left := fun m => ((c.receiveFrameMem m).2.1.conn.incoming.length,
      (c.receiveFrameMem m).2.1.responseTable.entries.length,
      (c.receiveFrameMem m).2.1.responseTable.tableSize)
    (c.receiveFrameMem [false]).1 = .badAlloc ∧ left [false] = (19, 0, 0) ∧
    (c.receiveFrameMem [true, false]).1 = .badAlloc ∧ left [true, false] = (10, 0, 0) ∧
    (c.receiveFrameMem [true, true, false, false]).1 = .badAlloc ∧
    left [true, true, false, false] = (0, 0, 0) ∧
    (c.receiveFrameMem [true, true, false]).1 = .res (.ub .nullDeref) ∧
    (c.receiveFrameMem [true, true, true, false]).1 = .badAlloc ∧
    left [true, true, true, false] = (0, 0, 0) ∧
    (c.receiveFrameMem [true, true, true, true, false]).1 = .badAlloc ∧
    left [true, true, true, true, false] = (0, 0, 0) ∧
    (c.receiveFrameMem [true, true, true, true, true, false]).1 = .badAlloc ∧
    left [true, true, true, true, true, false] = (0, 0, 34) ∧
    (c.receiveFrameMem [true, true, true, true, true, true, true, false]).1 = .badAlloc ∧
    left [true, true, true, true, true, true, true, false] = (0, 1, 68) ∧
    left [] = (0, 2, 68) ∧
    (c.sendPrefaceMem [false]).1 = .badAlloc ∧ (c.sendPrefaceMem [false]).2.1 = c ∧
    (c.sendPrefaceMem [true, false]).1 = .badAlloc ∧
    (c.sendPrefaceMem [true, false]).2.1.conn.sent.length = 20 := by
  decide +kernel

attribute [local instance] x86 in
/-- Non-vacuity of `C139_tables_partial`: a session in which an insertion failed. -/
example : ScarceSession (Client.new ⟨[], [], [], []⟩)
    [.updateRequestBlock [⟨.incrementalIndexing, .header (bstr "a", bstr "1")⟩],
     .updateRequestBlock [⟨.incrementalIndexing, .header (bstr "a", bstr "1")⟩]] 1
    ⟨⟨[], [], [], []⟩, ⟨[(bstr "a", bstr "1")], 68, 4096⟩, .default⟩ := by
  have e : ∀ c : Client, c = ⟨⟨[], [], [], []⟩, ⟨[(bstr "a", bstr "1")], 68, 4096⟩, .default⟩ →
      ScarceSession c [] 0 ⟨⟨[], [], [], []⟩, ⟨[(bstr "a", bstr "1")], 68, 4096⟩, .default⟩ := by
    rintro c rfl; exact .nil _
  refine .runsOut _ _ [true, false] _ 0 _ (by decide +kernel) (.ends _ _ [] _ 0 (.ok ()) _ ?_ ?_ ?_)
  · decide +kernel
  · decide +kernel
  · exact e _ (by decide +kernel)

end Mh2c
