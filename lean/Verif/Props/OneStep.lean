/-
C33, exactly: when an INCREMENTAL_INDEXING entry that is in a table leaves both tables equal.
-/
import Verif.Props.HeaderRfc

namespace Mh2c

open Rfc DynamicTable

theorem prefix_cons_self {h : Header} {es : List Header} :
    es <+: h :: es ↔ ∀ e ∈ es, e = h := by
  induction es with
  | nil => simp
  | cons x xs ih =>
      rw [List.cons_prefix_cons]
      constructor
      · rintro ⟨rfl, hp⟩ e he
        rcases List.mem_cons.1 he with rfl | he
        · rfl
        · exact ih.1 hp e he
      · intro hall
        obtain rfl := hall x List.mem_cons_self
        exact ⟨rfl, ih.2 fun e he => hall e (List.mem_cons_of_mem _ he)⟩

theorem takeFit_cons_self {n : Nat} {h : Header} {es : List Header} (hes : total es ≤ n) :
    takeFit n (h :: es) = es ↔ (∀ e ∈ es, e = h) ∧ n < total (h :: es) := by
  constructor
  · intro heq
    refine ⟨prefix_cons_self.1 ?_, ?_⟩
    · have hp := takeFit_prefix n (h :: es)
      rwa [heq] at hp
    by_contra hc
    rw [takeFit_all (by omega)] at heq
    exact absurd (congrArg List.length heq) (by simp)
  · rintro ⟨hall, hn⟩
    have h1 : es <+: takeFit n (h :: es) := takeFit_longest (prefix_cons_self.2 hall) hes
    have h2 := takeFit_prefix n (h :: es)
    have h3 := takeFit_total n (h :: es)
    refine (h1.eq_of_length_le ?_).symm
    by_contra hc
    have hle := h2.length_le
    have : takeFit n (h :: es) = h :: es := h2.eq_of_length_le (by simp at hle ⊢; omega)
    rw [this] at h3
    omega

/-- C33, how far it fails: in every state that the tables reach together, sending a header that is in
a table with INCREMENTAL_INDEXING makes the two tables differ, unless the table holds nothing but
copies of this header and has no room for another. -/
theorem C33_every_hit_violated (table : DynamicTable) (peer : Table) (hs : Session table peer)
    (h : Header) (mode : EncodeMode) (hin : InTables h table)
    (hfit : h.1.length + h.2.length + 32 ≤ peer.max) :
    ∃ bytes table', encodeHeaderBlock [⟨.incrementalIndexing, .header h⟩] mode table = .ok bytes ∧
      BlockDecodes peer bytes [.indexed h] peer ∧
      updateDynamicTable [⟨.incrementalIndexing, .header h⟩] table = (.ok (), table') ∧
      (table'.entries = peer.entries ↔
        (∀ e ∈ peer.entries, e = h) ∧
        peer.max < ((h :: peer.entries).map fun e => e.1.length + e.2.length + 32).sum) := by
  obtain ⟨ht, rfl⟩ := hs.inv
  obtain ⟨bytes, h1, h2⟩ := block_rfc (mode := mode) (items := [.indexed h])
    (.cons (.hit .incrementalIndexing h (by decide) hin) .nil)
    (by
      intro e he h' hh hn
      simp only [List.mem_cons, List.not_mem_nil, or_false] at he
      subst he
      injection hh with hh
      subst hh
      exact absurd hin hn)
    (List.pairwise_singleton _ _) table.toRfc (Or.inl (List.prefix_refl _))
  have hp := push_fits ht (h := h) (by unfold headerSize; exact hfit)
  refine ⟨bytes, ⟨takeFit table.maxTableSize (h :: table.entries),
    total (takeFit table.maxTableSize (h :: table.entries)), table.maxTableSize⟩, h1, h2, ?_, ?_⟩
  · simp only [updateDynamicTable, updateDynamicTableEntry, if_pos, HeaderEntry.getHeader,
      Res.ok_bind, hp]
  · have htot : total table.entries ≤ table.maxTableSize := by
      have := ht.size
      have := ht.le
      omega
    exact takeFit_cons_self htot

theorem goodBlock_full : GoodBlock .default
    [⟨.sizeUpdate, .maxSize 40⟩, ⟨.incrementalIndexing, .header (bstr "b", bstr "2")⟩] := by
  have hb : ¬ InTables (bstr "b", bstr "2") .default := hitIndex_none.1 (by decide +kernel)
  constructor
  · intro e he
    simp only [List.mem_cons, List.not_mem_nil, or_false] at he
    rcases he with rfl | rfl
    · exact Or.inl ⟨rfl, _, rfl⟩
    · exact Or.inr ⟨by decide, _, rfl⟩
  · intro e he hp
    simp only [List.mem_cons, List.not_mem_nil, or_false] at he
    rcases he with rfl | rfl <;> cases hp
  · intro e he hp h hh
    simp only [List.mem_cons, List.not_mem_nil, or_false] at he
    rcases he with rfl | rfl
    · cases hp
    · injection hh with hh; subst hh; exact hb
  · intro e he h hh _
    simp only [List.mem_cons, List.not_mem_nil, or_false] at he
    rcases he with rfl | rfl
    · cases hh
    · injection hh with hh; subst hh; decide
  · simp only [List.pairwise_cons, List.mem_cons, List.not_mem_nil, or_false,
      forall_eq, false_imp_iff, implies_true, List.Pairwise.nil, and_true]
    rintro _ ⟨h, hh, hm, -⟩
    exact absurd hm (by simp [DynamicTable.default, DynamicTable.new])
  · intro items hi
    cases hi with
    | cons h1 h2 =>
        cases h2 with
        | cons h3 h4 =>
            cases h4
            cases h1 with
            | size _ =>
                cases h3 with
                | hit _ _ _ hh => exact absurd hh hb
                | incremental _ _ => exact ⟨by decide, by decide, trivial⟩

/-- The tables differ after sending `:method: GET` this way first; they stay equal if the only entry
of a table with a maximum of 40 octets is sent again. -/
example : (∃ bytes table', encodeHeaderBlock
        [⟨.incrementalIndexing, .header (bstr ":method", bstr "GET")⟩] .none .default = .ok bytes ∧
      updateDynamicTable [⟨.incrementalIndexing, .header (bstr ":method", bstr "GET")⟩] .default =
        (.ok (), table') ∧ table'.entries ≠ []) ∧
    ∃ table peer, Session table peer ∧ InTables (bstr "b", bstr "2") table ∧
      (∀ e ∈ peer.entries, e = (bstr "b", bstr "2")) ∧
      peer.max < (((bstr "b", bstr "2") :: peer.entries).map
        fun e => e.1.length + e.2.length + 32).sum := by
  constructor
  · obtain ⟨b, t, h1, -, h3, h4⟩ := C33_every_hit_violated .default ⟨[], 4096⟩ .start
      (bstr ":method", bstr "GET") .none (Or.inl ⟨by decide, 2, by decide +kernel⟩) (by decide)
    exact ⟨b, t, h1, h3, fun hc => absurd (h4.1 hc).2 (by decide)⟩
  · obtain ⟨b, i, p, t, h1, h2, -, h3, h4⟩ := C33_session_continues_partial _ _ .start _ .none goodBlock_full
    have ht : t = ⟨[(bstr "b", bstr "2")], 34, 40⟩ := by
      have := h3.symm.trans (show _ = (Res.ok (), ⟨[(bstr "b", bstr "2")], 34, 40⟩) by decide +kernel)
      exact congrArg Prod.snd this
    obtain ⟨-, rfl⟩ := h4.inv
    subst ht
    exact ⟨_, _, h4, Or.inr List.mem_cons_self, by simp [DynamicTable.toRfc], by decide⟩

end Mh2c
