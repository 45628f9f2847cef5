/-
C84: the rules of RFC 7540 section 6 for single frames.
-/
import Verif.Spec.FrameRules
import Verif.Props.Safety
import Verif.Props.Loose

namespace Mh2c

open Rfc

/-! ## C84 -/

theorem legal_accepted [Platform] (fh : FrameHeader) (raw : Bytes) (table : DynamicTable)
    (h : LayoutRule fh.flags fh.type raw)
    (hb : fh.type ∈ [1, 5, 9] → ∃ block, CarriesBlock fh.flags fh.type raw block ∧
      (decodeHeaderBlock block table).Returns) :
    ∃ f, buildFrame fh raw table = .ok f ∧ f.kind = some fh.type := by
  generalize ht : fh.type = t at h hb
  cases h with
  | data _ content h => exact ⟨_, buildFrame_data _ _ _ ht, rfl⟩
  | block _ _ _ h' =>
      obtain ⟨block, h, es, he⟩ := hb (by cases h' <;> decide)
      clear h'
      cases h with
      | headers _ _ hp hc =>
          obtain ⟨g, -, e⟩ := headersOfRaw_carries table (CarriesBlock.headers raw block hp hc)
          rw [buildFrame_headers _ _ _ ht, buildHeadersFrame, e, he]
          exact ⟨_, rfl, rfl⟩
      | headersPriority _ pr _ hp hc hl =>
          obtain ⟨g, -, e⟩ := headersOfRaw_carries table
            (CarriesBlock.headersPriority raw pr block hp hc hl)
          rw [buildFrame_headers _ _ _ ht, buildHeadersFrame, e, he]
          exact ⟨_, rfl, rfl⟩
      | pushPromise _ pr _ hc hl =>
          obtain ⟨pad, hx⟩ := extractPadding_content hc
          have hlen : 4 ≤ (pr ++ block).length := by rw [List.length_append]; omega
          have hd : (pr ++ block).drop 4 = block := by rw [← hl, List.drop_left]
          rw [buildFrame_pushPromise _ _ _ ht]
          unfold PushPromiseFrame.ofRaw
          rw [hx, Res.ok_bind]
          simp only
          rw [readAt_ok (by omega), Res.ok_bind, bytes2integral_ok (by omega) (by omega), Res.ok_bind,
            eraseFirst_drop (by omega), Res.ok_bind, hd, he]
          exact ⟨_, rfl, rfl⟩
      | continuation =>
          rw [buildFrame_continuation _ _ _ ht]
          unfold ContinuationFrame.ofRaw
          rw [he]
          exact ⟨_, rfl, rfl⟩
  | priority _ h =>
      obtain ⟨f, hf, -⟩ := (C49_priority fh ht raw table).2 (by omega)
      exact ⟨_, hf, rfl⟩
  | rstStream _ h =>
      obtain ⟨f, hf, -⟩ := (C49_rst_stream fh ht raw table).2 (by omega)
      exact ⟨_, hf, rfl⟩
  | settings _ h ha =>
      obtain ⟨_, f, -, hf, -⟩ := C50_well_formed_partial fh ht raw table h
      exact ⟨_, hf, rfl⟩
  | ping _ h => exact ⟨_, buildFrame_ping _ _ _ ht, rfl⟩
  | goaway _ h =>
      obtain ⟨f, hf, -⟩ := (C49_goaway fh ht raw table).2 h
      exact ⟨_, hf, rfl⟩
  | windowUpdate _ h h0 =>
      obtain ⟨f, hf, -⟩ := (C49_window_update fh ht raw table).2 h
      exact ⟨_, hf, rfl⟩

/-- C84, nothing legal is rejected: a frame that obeys the layout rules of its type, and whose header
block the client reads if it has one (C121 says which), is delivered as a frame of that type. -/
theorem C84_legal_accepted [Platform] (fh : FrameHeader) (raw : Bytes) (table : DynamicTable)
    (h : LayoutRule fh.flags fh.type raw)
    (hb : fh.type ∈ [1, 5, 9] → ∃ block es, CarriesBlock fh.flags fh.type raw block ∧
      ReadsAs table.entries block es) :
    ∃ f, buildFrame fh raw table = .ok f ∧ f.kind = some fh.type := by
  refine legal_accepted fh raw table h fun ht => ?_
  obtain ⟨block, es, h1, h2⟩ := hb ht
  exact ⟨block, h1, es, (C121_accepts block table es).2 h2⟩

/-- The octets of an accepted frame, by type: what is checked in place of `LayoutRule`. Missing:
the rules that are not checked, see the violations below. -/
theorem C84_accepted_partial [Platform] (fh : FrameHeader) (raw : Bytes) (table : DynamicTable)
    (ht : fh.type ∉ [1, 5, 9]) :
    (buildFrame fh raw table).Returns ↔
      fh.type = 0 ∨ fh.type = 6 ∨ (fh.type = 2 ∧ 5 ≤ raw.length) ∨ (fh.type = 3 ∧ 4 ≤ raw.length) ∨
      (fh.type = 4 ∧ raw.length % 6 = 0) ∨ (fh.type = 7 ∧ 8 ≤ raw.length) ∨
      (fh.type = 8 ∧ raw.length = 4) := by
  simp only [List.mem_cons, List.not_mem_nil, or_false, not_or] at ht
  rcases type_cases fh.type with h | h | h | h | h | h | h | h | h | h | h
  · simp only [h, true_or, iff_true]
    exact ⟨_, buildFrame_data _ _ _ h⟩
  · exact absurd h ht.1
  · have h1 := C49_priority fh h raw table
    by_cases hl : 5 ≤ raw.length
    · obtain ⟨f, hf, -⟩ := h1.2 hl
      simp [h, hl, Res.Returns, hf]
    · rw [h1.1 (by omega)]
      simp [h, hl, Res.Returns]
  · have h1 := C49_rst_stream fh h raw table
    by_cases hl : 4 ≤ raw.length
    · obtain ⟨f, hf, -⟩ := h1.2 hl
      simp [h, hl, Res.Returns, hf]
    · rw [h1.1 (by omega)]
      simp [h, hl, Res.Returns]
  · by_cases hl : raw.length % 6 = 0
    · obtain ⟨_, f, -, hf, -⟩ := C50_well_formed_partial fh h raw table hl
      simp [h, hl, Res.Returns, hf]
    · rw [C50_malformed_settings_violated fh h raw table hl]
      simp [h, hl, Res.Returns]
  · exact absurd h ht.2.1
  · simp only [h, true_or, or_true, iff_true]
    exact ⟨_, buildFrame_ping _ _ _ h⟩
  · have h1 := C49_goaway fh h raw table
    by_cases hl : 8 ≤ raw.length
    · obtain ⟨f, hf, -⟩ := h1.2 hl
      simp [h, hl, Res.Returns, hf]
    · rw [h1.1 (by omega)]
      simp [h, hl, Res.Returns]
  · have h1 := C49_window_update fh h raw table
    by_cases hl : raw.length = 4
    · obtain ⟨f, hf, -⟩ := h1.2 hl
      simp [h, hl, Res.Returns, hf]
    · rw [h1.1 hl]
      simp [h, hl, Res.Returns]
  · exact absurd h ht.2.2
  · rw [buildFrame_unknown _ _ _ h]
    have hne : ∀ n : UInt8, n.toNat ≤ 9 → fh.type ≠ n := fun n hn he => by rw [he] at h; omega
    simp [Res.Returns, hne 0 (by decide), hne 6 (by decide), hne 2 (by decide), hne 3 (by decide),
      hne 4 (by decide), hne 7 (by decide), hne 8 (by decide)]

/-- C84 is false of the code: these frames break the rules and are delivered all the same. DATA with
more padding than payload, PRIORITY and RST_STREAM with trailing octets, SETTINGS acknowledgements
that carry settings, PING of any length, WINDOW_UPDATE by nothing. -/
theorem C84_layout_violated [Platform] (fh : FrameHeader) (raw : Bytes) (table : DynamicTable)
    (h : (fh.type = 0 ∧ hasPadded fh.flags ∧ PaddingTooLong raw) ∨ (fh.type = 2 ∧ 5 < raw.length) ∨
      (fh.type = 3 ∧ 4 < raw.length) ∨
      (fh.type = 4 ∧ fh.flags.toNat.testBit 0 = true ∧ raw ≠ [] ∧ raw.length % 6 = 0) ∨
      (fh.type = 6 ∧ raw.length ≠ 8) ∨
      (fh.type = 8 ∧ raw.length = 4 ∧ beValue raw % 2 ^ 31 = 0)) :
    ¬ LayoutRule fh.flags fh.type raw ∧ (buildFrame fh raw table).Returns := by
  have hb : fh.type ∉ [1, 5, 9] := by
    rcases h with h | h | h | h | h | h <;> rw [h.1] <;> decide
  constructor
  · intro hr
    have hnb : ∀ block, ¬ CarriesBlock fh.flags fh.type raw block := by
      intro block hc
      generalize fh.type = t at hc hb
      cases hc <;> exact absurd hb (by decide)
    generalize fh.type = t at hr h hnb
    cases hr with
    | block _ _ block hc => exact hnb block hc
    | data _ content hc =>
        simp at h
        obtain ⟨hp, hl⟩ := h
        cases hc with
        | plain _ hn => exact hn hp
        | padded pad c padding _ hlen =>
            rcases hl with hl | ⟨pad', rest, hl, hle⟩
            · cases hl
            · obtain ⟨rfl, rfl⟩ := List.cons.inj hl
              rw [List.length_cons, List.length_append] at hle
              omega
    | priority _ hl => simp at h; omega
    | rstStream _ hl => simp at h; omega
    | settings _ hl ha => simp [-Nat.testBit_zero] at h; exact h.2.1 (ha h.1)
    | ping _ hl => simp at h; exact h hl
    | goaway _ hl => simp at h
    | windowUpdate _ hl h0 => simp at h; exact h0 h.2
  · rw [C84_accepted_partial fh raw table hb]
    rcases h with h | h | h | h | h | h
    · exact Or.inl h.1
    · exact Or.inr (Or.inr (Or.inl ⟨h.1, by omega⟩))
    · exact Or.inr (Or.inr (Or.inr (Or.inl ⟨h.1, by omega⟩)))
    · exact Or.inr (Or.inr (Or.inr (Or.inr (Or.inl ⟨h.1, h.2.2.2⟩))))
    · exact Or.inr (Or.inl h.1)
    · exact Or.inr (Or.inr (Or.inr (Or.inr (Or.inr (Or.inr ⟨h.1, h.2.1⟩)))))

/-- C84: the stream identifier is never checked. Whatever is delivered with one identifier is
delivered with any other. Missing: the rules on stream identifiers, none of which is checked. -/
theorem C84_any_stream_partial [Platform] (fh : FrameHeader) (streamId : UInt32) (raw : Bytes)
    (table : DynamicTable) (f : Frame) (h : buildFrame fh raw table = .ok f) :
    ∃ g, buildFrame { fh with streamId := streamId } raw table = .ok g ∧ g.kind = f.kind ∧
      g.header = { f.header with streamId := streamId } := by
  cases built_of_ok h with
  | data ht => exact ⟨_, buildFrame_data _ _ _ ht, rfl, rfl⟩
  | headers ht f hf =>
      rw [buildFrame_headers { fh with streamId := streamId } _ _ ht, buildHeadersFrame]
      unfold HeadersFrame.ofRaw at hf ⊢
      obtain ⟨⟨pad, rest⟩, h1, hf⟩ := Res.bind_eq_ok.1 hf
      obtain ⟨⟨pr, rest'⟩, h2, hf⟩ := Res.bind_eq_ok.1 hf
      obtain ⟨es, h3, hf⟩ := Res.bind_eq_ok.1 hf
      obtain rfl := Res.ok.inj hf
      simp only at h1 h2 h3 ⊢
      rw [h1, Res.ok_bind]
      simp only
      rw [h2, Res.ok_bind]
      simp only
      rw [h3]
      exact ⟨_, rfl, rfl, rfl⟩
  | rawHeaders ht e hf =>
      rw [buildFrame_headers { fh with streamId := streamId } _ _ ht, buildHeadersFrame]
      have : HeadersFrame.ofRaw { fh with streamId := streamId } raw table = .throw e := by
        unfold HeadersFrame.ofRaw at hf ⊢
        simp only at hf ⊢
        cases h1 : extractPadding fh.flags raw with
        | ok p =>
            obtain ⟨pad, rest⟩ := p
            rw [h1, Res.ok_bind] at hf
            rw [Res.ok_bind]
            simp only at hf ⊢
            cases h2 : extractPriority fh.flags rest with
            | ok p =>
                obtain ⟨pr, rest'⟩ := p
                rw [h2, Res.ok_bind] at hf
                rw [Res.ok_bind]
                simp only at hf ⊢
                cases h3 : decodeHeaderBlock rest' table with
                | ok es => rw [h3] at hf; cases hf
                | throw e => rw [h3] at hf; exact hf
                | ub k => rw [h3] at hf; cases hf
                | diverge => rw [h3] at hf; cases hf
            | throw e => rw [h2] at hf; exact hf
            | ub k => rw [h2] at hf; cases hf
            | diverge => rw [h2] at hf; cases hf
        | throw e => rw [h1] at hf; exact hf
        | ub k => rw [h1] at hf; cases hf
        | diverge => rw [h1] at hf; cases hf
      rw [this]
      exact ⟨_, rfl, rfl, rfl⟩
  | priority ht f hf =>
      rw [buildFrame_priority { fh with streamId := streamId } _ _ ht]
      unfold PriorityFrame.ofRaw at hf ⊢
      obtain ⟨p, h1, hf⟩ := Res.bind_eq_ok.1 hf
      obtain ⟨u, h2, hf⟩ := Res.bind_eq_ok.1 hf
      obtain rfl := Res.ok.inj hf
      rw [h1, Res.ok_bind, h2]
      exact ⟨_, rfl, rfl, rfl⟩
  | rstStream ht f hf =>
      rw [buildFrame_rstStream { fh with streamId := streamId } _ _ ht]
      unfold RstStreamFrame.ofRaw at hf ⊢
      split at hf
      · cases hf
      · rename_i hl
        obtain ⟨p, h1, hf⟩ := Res.bind_eq_ok.1 hf
        obtain rfl := Res.ok.inj hf
        rw [if_neg hl, h1]
        exact ⟨_, rfl, rfl, rfl⟩
  | settings ht p hp =>
      rw [buildFrame_settings { fh with streamId := streamId } _ _ ht, buildSettingsFrame, hp]
      exact ⟨_, rfl, rfl, rfl⟩
  | pushPromise ht f hf =>
      rw [buildFrame_pushPromise { fh with streamId := streamId } _ _ ht]
      unfold PushPromiseFrame.ofRaw at hf ⊢
      obtain ⟨⟨pad, rest⟩, h1, hf⟩ := Res.bind_eq_ok.1 hf
      obtain ⟨b, h2, hf⟩ := Res.bind_eq_ok.1 hf
      obtain ⟨v, h3, hf⟩ := Res.bind_eq_ok.1 hf
      obtain ⟨r, h4, hf⟩ := Res.bind_eq_ok.1 hf
      obtain ⟨es, h5, hf⟩ := Res.bind_eq_ok.1 hf
      obtain rfl := Res.ok.inj hf
      simp only at h1 h2 h3 h4 ⊢
      rw [h1, Res.ok_bind]
      simp only
      rw [h2, Res.ok_bind, h3, Res.ok_bind, h4, Res.ok_bind, h5]
      exact ⟨_, rfl, rfl, rfl⟩
  | ping ht f hf =>
      obtain rfl := Res.ok.inj hf
      exact ⟨_, buildFrame_ping _ _ _ ht, rfl, rfl⟩
  | goaway ht f hf =>
      rw [buildFrame_goaway { fh with streamId := streamId } _ _ ht]
      unfold GoawayFrame.ofRaw at hf ⊢
      split at hf
      · cases hf
      · rename_i hl
        obtain ⟨p, h1, hf⟩ := Res.bind_eq_ok.1 hf
        obtain ⟨q, h2, hf⟩ := Res.bind_eq_ok.1 hf
        obtain rfl := Res.ok.inj hf
        rw [if_neg hl, h1, Res.ok_bind, h2]
        exact ⟨_, rfl, rfl, rfl⟩
  | windowUpdate ht f hf =>
      rw [buildFrame_windowUpdate { fh with streamId := streamId } _ _ ht]
      unfold WindowUpdateFrame.ofRaw at hf ⊢
      obtain ⟨p, h1, hf⟩ := Res.bind_eq_ok.1 hf
      obtain ⟨q, h2, hf⟩ := Res.bind_eq_ok.1 hf
      obtain ⟨u, h3, hf⟩ := Res.bind_eq_ok.1 hf
      obtain rfl := Res.ok.inj hf
      rw [h1, Res.ok_bind, h2, Res.ok_bind, h3]
      exact ⟨_, rfl, rfl, rfl⟩
  | continuation ht f hf =>
      rw [buildFrame_continuation { fh with streamId := streamId } _ _ ht]
      unfold ContinuationFrame.ofRaw at hf ⊢
      obtain ⟨es, h1, hf⟩ := Res.bind_eq_ok.1 hf
      obtain rfl := Res.ok.inj hf
      rw [h1]
      exact ⟨_, rfl, rfl, rfl⟩

/-- C84 is false of the code: every frame that is delivered is also delivered on a stream the RFC
forbids for its type (WINDOW_UPDATE is allowed on all). -/
theorem C84_stream_violated [Platform] (fh : FrameHeader) (raw : Bytes) (table : DynamicTable)
    (f : Frame) (h : buildFrame fh raw table = .ok f) (h8 : fh.type ≠ 8) :
    ∃ streamId g, ¬ StreamRule fh.type streamId.toNat ∧
      buildFrame { fh with streamId := streamId } raw table = .ok g ∧ g.kind = f.kind := by
  have hk : ∃ streamId : UInt32, ¬ StreamRule fh.type streamId.toNat := by
    rcases type_cases fh.type with ht | ht | ht | ht | ht | ht | ht | ht | ht | ht | ht
    all_goals first
      | exact absurd ht h8
      | (rw [ht]; exact ⟨0, fun hr => hr.1 (by decide) rfl⟩)
      | (rw [ht]; exact ⟨1, fun hr => absurd (hr.2 (by decide)) (by decide)⟩)
      | (rw [buildFrame_unknown _ _ _ ht] at h; cases h)
  obtain ⟨sid, hs⟩ := hk
  obtain ⟨g, hg, h1, -⟩ := C84_any_stream_partial fh sid raw table f h
  exact ⟨sid, g, hs, hg, h1⟩

/-- A legal WINDOW_UPDATE; an illegal one; a PING without data, on a stream. -/
example : LayoutRule 0 8 [0, 0, 0, 1] ∧ StreamRule 8 0 ∧ ¬ StreamRule 6 1 :=
  ⟨.windowUpdate _ rfl (by decide), by unfold StreamRule; decide, by unfold StreamRule; decide⟩

attribute [local instance] x86 in
example : (buildFrame ⟨4, 8, 0, 0, 0⟩ [0x80, 0, 0, 0] .default) =
      .ok (.windowUpdate ⟨⟨4, 8, 0, 0, 0⟩, 1, 0⟩) ∧
    buildFrame ⟨0, 6, 0, 0, 1⟩ [] .default = .ok (.ping ⟨⟨0, 6, 0, 0, 1⟩, []⟩) := by
  decide +kernel

end Mh2c
