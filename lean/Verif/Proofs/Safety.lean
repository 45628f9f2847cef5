/-
Helper lemmas: which received payloads are safe to build and to process.
-/
import Verif.Proofs.Delimit
import Verif.Proofs.Client

namespace Mh2c

open Rfc DynamicTable

theorem extractPadding_content {flags : UInt8} {raw c : Bytes} (h : Content flags raw c) :
    ∃ pad, extractPadding flags raw = .ok (pad, c) := by
  cases h with
  | plain _ h => exact ⟨_, extractPadding_unpadded h raw⟩
  | padded pad content padding h hl =>
      have := extractPadding_good (p := pad) (rest := c ++ padding) h
        (by rw [List.length_append]; omega)
      rw [List.length_append, hl, Nat.add_sub_cancel, List.take_left] at this
      exact ⟨_, this⟩

theorem extractPadding_cases (flags : UInt8) (raw : Bytes) :
    (∃ pad c, Content flags raw c ∧ extractPadding flags raw = .ok (pad, c)) ∨
      ∃ k, extractPadding flags raw = .ub k := by
  by_cases h : hasPadded flags
  · match raw with
    | [] => exact Or.inr (extractPadding_bad h (Or.inl rfl))
    | p :: rest =>
        by_cases hl : p.toNat ≤ rest.length
        · refine Or.inl ⟨_, _, ?_, extractPadding_good h hl⟩
          have := Content.padded p (rest.take (rest.length - p.toNat))
            (rest.drop (rest.length - p.toNat)) h (by rw [List.length_drop]; omega)
          rwa [List.take_append_drop] at this
        · exact Or.inr (extractPadding_bad h (Or.inr ⟨p, rest, rfl, by simp; omega⟩))
  · exact Or.inl ⟨_, _, .plain raw h, extractPadding_unpadded h raw⟩

theorem headersOfRaw_safe [Platform] {fh : FrameHeader} {raw : Bytes} {table : DynamicTable} :
    (HeadersFrame.ofRaw fh raw table).Safe ↔
      ∃ block, CarriesBlock fh.flags 1 raw block ∧ (decodeHeaderBlock block table).Safe := by
  unfold HeadersFrame.ofRaw
  constructor
  · intro h
    rcases extractPadding_cases fh.flags raw with ⟨pad, c, hc, he⟩ | ⟨k, he⟩
    · rw [he, Res.ok_bind] at h
      simp only at h
      by_cases hp : hasPriority fh.flags
      · by_cases hl : 5 ≤ c.length
        · rw [extractPriority_eq hp hl, Res.ok_bind] at h
          simp only at h
          refine ⟨c.drop 5, .headersPriority raw (c.take 5) _ hp ?_
            (by rw [List.length_take]; omega), ?_⟩
          · rw [List.take_append_drop]; exact hc
          · cases hd : decodeHeaderBlock (c.drop 5) table with
            | ok _ => trivial
            | throw _ => trivial
            | ub _ => rw [hd] at h; exact h
            | diverge => rw [hd] at h; exact h
        · obtain ⟨k, hk⟩ := extractPriority_short hp (by omega : c.length < 5)
          rw [hk] at h
          exact h.elim
      · rw [extractPriority_none hp, Res.ok_bind] at h
        simp only at h
        refine ⟨c, .headers raw c hp hc, ?_⟩
        cases hd : decodeHeaderBlock c table with
        | ok _ => trivial
        | throw _ => trivial
        | ub _ => rw [hd] at h; exact h
        | diverge => rw [hd] at h; exact h
    · rw [he] at h; exact h.elim
  · rintro ⟨block, hb, hs⟩
    cases hb with
    | headers _ _ hp hc =>
        obtain ⟨pad, he⟩ := extractPadding_content hc
        rw [he, Res.ok_bind]
        simp only
        rw [extractPriority_none hp, Res.ok_bind]
        exact safe_bind hs (fun _ _ => trivial)
    | headersPriority _ pr _ hp hc hl =>
        obtain ⟨pad, he⟩ := extractPadding_content hc
        rw [he, Res.ok_bind]
        simp only
        rw [extractPriority_eq hp (by rw [List.length_append]; omega), Res.ok_bind]
        simp only
        have hd : (pr ++ block).drop 5 = block := by rw [← hl, List.drop_left]
        rw [hd]
        exact safe_bind hs (fun _ _ => trivial)

theorem pushPromiseOfRaw_safe [Platform] {fh : FrameHeader} {raw : Bytes} {table : DynamicTable} :
    (PushPromiseFrame.ofRaw fh raw table).Safe ↔
      ∃ block, CarriesBlock fh.flags 5 raw block ∧ (decodeHeaderBlock block table).Safe := by
  unfold PushPromiseFrame.ofRaw
  constructor
  · intro h
    rcases extractPadding_cases fh.flags raw with ⟨pad, c, hc, he⟩ | ⟨k, he⟩
    · rw [he, Res.ok_bind] at h
      simp only at h
      by_cases hl : 4 ≤ c.length
      · rw [readAt_ok (by omega), Res.ok_bind, bytes2integral_ok (by omega) (by omega), Res.ok_bind,
          eraseFirst_drop (by omega), Res.ok_bind] at h
        refine ⟨c.drop 4, .pushPromise raw (c.take 4) _ ?_ (by rw [List.length_take]; omega), ?_⟩
        · rw [List.take_append_drop]; exact hc
        · cases hd : decodeHeaderBlock (c.drop 4) table with
          | ok _ => trivial
          | throw _ => trivial
          | ub _ => rw [hd] at h; exact h
          | diverge => rw [hd] at h; exact h
      · exfalso
        cases hr : readAt c 0 with
        | ok x =>
            rw [hr, Res.ok_bind, bytes2integral_short (by omega) (by omega)] at h
            exact h
        | throw e => exact absurd hr (by unfold readAt; split <;> simp)
        | ub k => rw [hr] at h; exact h
        | diverge => rw [hr] at h; exact h
    · rw [he] at h; exact h.elim
  · rintro ⟨block, hb, hs⟩
    cases hb with
    | pushPromise _ pr _ hc hl =>
        obtain ⟨pad, he⟩ := extractPadding_content hc
        have hlen : 4 ≤ (pr ++ block).length := by rw [List.length_append]; omega
        rw [he, Res.ok_bind]
        simp only
        rw [readAt_ok (by omega), Res.ok_bind, bytes2integral_ok (by omega) (by omega), Res.ok_bind,
          eraseFirst_drop (by omega), Res.ok_bind, ← hl, List.drop_left]
        exact safe_bind hs (fun _ _ => trivial)

theorem continuationOfRaw_safe [Platform] {fh : FrameHeader} {raw : Bytes} {table : DynamicTable} :
    (ContinuationFrame.ofRaw fh raw table).Safe ↔
      ∃ block, CarriesBlock fh.flags 9 raw block ∧ (decodeHeaderBlock block table).Safe := by
  unfold ContinuationFrame.ofRaw
  constructor
  · intro h
    refine ⟨raw, .continuation raw, ?_⟩
    cases hd : decodeHeaderBlock raw table with
    | ok _ => trivial
    | throw _ => trivial
    | ub _ => rw [hd] at h; exact h
    | diverge => rw [hd] at h; exact h
  · rintro ⟨block, hb, hs⟩
    cases hb with
    | continuation => exact safe_bind hs (fun _ _ => trivial)

/-- What the receiving constructor does with the block of a payload. -/
theorem headersOfRaw_carries [Platform] {fh : FrameHeader} {raw block : Bytes} (table : DynamicTable)
    (hb : CarriesBlock fh.flags 1 raw block) :
    ∃ g : HeaderBlock → HeadersFrame, (∀ es, (g es).headerBlock = es) ∧
      HeadersFrame.ofRaw fh raw table = (do return g (← decodeHeaderBlock block table)) := by
  unfold HeadersFrame.ofRaw
  cases hb with
  | headers _ _ hp hc =>
      obtain ⟨pad, he⟩ := extractPadding_content hc
      rw [he, Res.ok_bind]
      simp only
      rw [extractPriority_none hp, Res.ok_bind]
      exact ⟨fun es => _, fun es => rfl, rfl⟩
  | headersPriority _ pr _ hp hc hl =>
      obtain ⟨pad, he⟩ := extractPadding_content hc
      rw [he, Res.ok_bind]
      simp only
      rw [extractPriority_eq hp (by rw [List.length_append]; omega), Res.ok_bind]
      simp only
      have hd : (pr ++ block).drop 5 = block := by rw [← hl, List.drop_left]
      rw [hd]
      exact ⟨fun es => _, fun es => rfl, rfl⟩

theorem headers_block [Platform] {fh : FrameHeader} {raw block : Bytes} {table : DynamicTable}
    {f : HeadersFrame} (hb : CarriesBlock fh.flags 1 raw block)
    (h : HeadersFrame.ofRaw fh raw table = .ok f) :
    decodeHeaderBlock block table = .ok f.headerBlock := by
  obtain ⟨g, hg, e⟩ := headersOfRaw_carries table hb
  rw [e] at h
  obtain ⟨es, h1, h2⟩ := Res.bind_eq_ok.1 h
  rw [h1, ← Res.ok.inj h2, hg]

theorem headers_block_ok [Platform] {fh : FrameHeader} {raw block : Bytes} {table : DynamicTable}
    {es : HeaderBlock} (hb : CarriesBlock fh.flags 1 raw block)
    (h : decodeHeaderBlock block table = .ok es) (e : Exc) :
    HeadersFrame.ofRaw fh raw table ≠ .throw e := by
  obtain ⟨g, hg, he⟩ := headersOfRaw_carries table hb
  rw [he, h]
  simp

theorem pushPromise_block [Platform] {fh : FrameHeader} {raw block : Bytes} {table : DynamicTable}
    {f : PushPromiseFrame} (hb : CarriesBlock fh.flags 5 raw block)
    (h : PushPromiseFrame.ofRaw fh raw table = .ok f) :
    decodeHeaderBlock block table = .ok f.payload.headerBlock := by
  unfold PushPromiseFrame.ofRaw at h
  cases hb with
  | pushPromise _ pr _ hc hl =>
      obtain ⟨pad, he⟩ := extractPadding_content hc
      have hlen : 4 ≤ (pr ++ block).length := by rw [List.length_append]; omega
      rw [he, Res.ok_bind] at h
      simp only at h
      rw [readAt_ok (by omega), Res.ok_bind, bytes2integral_ok (by omega) (by omega), Res.ok_bind,
        eraseFirst_drop (by omega), Res.ok_bind, ← hl, List.drop_left] at h
      obtain ⟨es, h1, h2⟩ := Res.bind_eq_ok.1 h
      rw [h1, ← Res.ok.inj h2]

theorem continuation_block [Platform] {fh : FrameHeader} {raw block : Bytes} {table : DynamicTable}
    {f : ContinuationFrame} (hb : CarriesBlock fh.flags 9 raw block)
    (h : ContinuationFrame.ofRaw fh raw table = .ok f) :
    decodeHeaderBlock block table = .ok f.headerBlock := by
  unfold ContinuationFrame.ofRaw at h
  cases hb with
  | continuation =>
      obtain ⟨es, h1, h2⟩ := Res.bind_eq_ok.1 h
      rw [h1, ← Res.ok.inj h2]

theorem safe_map {α β : Type} {x : Res α} {g : α → β} :
    (do return g (← x) : Res β).Safe ↔ x.Safe := by
  cases x <;> exact Iff.rfl

theorem updateDynamicTable_fits {es : HeaderBlock} {t : DynamicTable} (ht : t.Inv)
    (hes : ∀ x ∈ es, WellTyped x) (hsz : ∀ x ∈ es, ∀ m, x.entry = .maxSize m → m < 2 ^ 63)
    (hf : InsertsFit t.maxTableSize es) : (updateDynamicTable es t).1 = .ok () := by
  induction es generalizing t with
  | nil => rfl
  | cons x xs ih =>
      obtain ⟨p, v⟩ := x
      have hx := hes ⟨p, v⟩ (by simp)
      have ih' := fun (t : DynamicTable) ht hf => ih (t := t) ht
        (fun y hy => hes y (by simp [hy])) (fun y hy => hsz y (by simp [hy])) hf
      unfold updateDynamicTable updateDynamicTableEntry
      rcases hx with ⟨h1, n, h2⟩ | ⟨h1, h, h2⟩
      · simp only at h1 h2
        subst h1 h2
        have hn : n < 2 ^ 63 := hsz _ List.mem_cons_self n rfl
        obtain ⟨t', e1, e2, e3⟩ := updateTableSize_refines ht hn
        rw [if_neg (by simp), if_pos rfl]
        simp only [HeaderEntry.getMaxSize, Res.ok_bind, e1]
        exact ih' t' e2 (by
          have : t'.maxTableSize = n := congrArg Table.max e3
          rw [this]; simpa [InsertsFit] using hf)
      · simp only at h1 h2
        subst h2
        by_cases hp : p = .incrementalIndexing
        · subst hp
          obtain ⟨hf1, hf2⟩ := hf
          obtain ⟨t', e1, e2, e3⟩ := push_refines ht (h := h) hf1
          rw [if_pos rfl]
          simp only [HeaderEntry.getHeader, Res.ok_bind, e1]
          exact ih' t' e2 (by
            have : t'.maxTableSize = t.maxTableSize := congrArg Table.max e3
            rw [this]; exact hf2)
        · simp only [if_neg hp, if_neg h1]
          exact ih' t ht (by
            unfold InsertsFit at hf
            split at hf <;> simp_all)

end Mh2c
