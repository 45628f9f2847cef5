/-
C67-C70: printing frames.
-/
import Verif.Proofs.Dump

namespace Mh2c

open Rfc Mh2c.Stream

/-! ## C68 -/

theorem dataLength_fit (n : Nat) (pad : UInt8) (hn : n < 2 ^ 24) (h : pad.toNat + 1 ≤ n) :
    dataLength (castToFhLength n) pad = n - pad.toNat - 1 := by
  unfold dataLength castToFhLength
  simp only [UInt32.toNat_ofNat']
  omega

theorem dataLength_unfit (n : Nat) (pad : UInt8) (hn : n < 2 ^ 24) (h : n ≤ pad.toNat) :
    2 ^ 31 < dataLength (castToFhLength n) pad := by
  have := pad.toNat_lt
  unfold dataLength castToFhLength
  simp only [UInt32.toNat_ofNat']
  omega

theorem parts_new [Platform] (flags : UInt8) (sid : UInt32) (raw : Bytes) :
    (DataFrame.new flags sid raw).parts = if hasPadded flags then do
      let padLength ← readAt raw 0
      let data ← addressRange raw 1 (dataLength (castToFhLength raw.length) padLength)
      if padLength.toNat > raw.length then .ub .badIterator
      else return (padLength, data, raw.drop (raw.length - padLength.toNat))
    else do
      let data ← addressRange raw 0 (castToFhLength raw.length).toNat
      return (0, data, []) := by
  unfold DataFrame.parts
  rw [padded_ite]
  rfl

/-- C68, the part that holds: a printable DATA frame is printed, data and padding apart, as the RFC
splits the payload. Missing: safety for the other frames, see `C68_unprintable_violated`. -/
theorem C68_data_partial [Platform] (flags : UInt8) (sid : UInt32) (raw : Bytes) (s : Stream)
    (hl : raw.length < 2 ^ 24) (h : DataPrintable flags raw) :
    ∃ data padding, raw = withPadding flags data padding ∧ padding.length ≤ 255 ∧
      (¬ hasPadded flags → padding = []) ∧
      (DataFrame.new flags sid raw).dump s = .ok ((hexBytes (bstr "\n              ") 0 padding
        ((dumpStart (bstr "=== DATA FRAME ===\n") (DataFrame.new flags sid raw).header s).text
          (bstr "  Pad Length: " ++ Stream.toString padding.length ++ bstr "\n" ++
            bstr "  Data      : \n" ++ bstr "    " ++ indentNewlines data ++ bstr "\n" ++
            bstr "  Padding   : \n"))).text (bstr "\n")) := by
  obtain ⟨h1, h2⟩ := h
  unfold DataFrame.dump withPadding
  rw [parts_new]
  by_cases hp : hasPadded flags
  · have h3 := h1 hp
    rw [if_pos hp] at h2
    rw [if_pos hp]
    cases raw with
    | nil => exact absurd (Or.inl rfl) h3
    | cons pad rest =>
        have hpl : pad.toNat ≤ rest.length := by
          by_contra hc
          exact h3 (Or.inr ⟨pad, rest, rfl, by simp; omega⟩)
        refine ⟨rest.take (rest.length - pad.toNat), rest.drop (rest.length - pad.toNat), ?_, ?_, ?_, ?_⟩
        · rw [if_pos hp]
          unfold padded
          simp only [List.length_drop]
          rw [(by omega : rest.length - (rest.length - pad.toNat) = pad.toNat)]
          simp
        · simp only [List.length_drop]
          have := pad.toNat_lt
          omega
        · intro hc; exact absurd hp hc
        · rw [readAt_ok (by simp), Res.ok_bind, List.getElem_cons_zero,
            dataLength_fit _ _ hl (by simp; omega)]
          unfold addressRange
          rw [if_pos (by simp; omega), if_neg (by
            rintro ⟨h4, h5⟩
            have := h2 h5
            omega)]
          simp only [Res.ok_bind]
          rw [if_neg (by simp; omega)]
          simp only [Res.ok_bind, Res.pure_eq, List.length_cons, List.drop_succ_cons,
            List.drop_zero, List.length_drop]
          rw [(by omega : rest.length - (rest.length - pad.toNat) = pad.toNat),
            (by omega : rest.length + 1 - pad.toNat - 1 = rest.length - pad.toNat),
            (by omega : rest.length + 1 - pad.toNat = (rest.length - pad.toNat) + 1),
            List.drop_succ_cons]
  · rw [if_neg hp] at h2
    refine ⟨raw, [], by rw [if_neg hp], by simp, fun _ => rfl, ?_⟩
    rw [if_neg hp]
    have hc : (castToFhLength raw.length).toNat = raw.length := by
      unfold castToFhLength
      simp only [UInt32.toNat_ofNat']
      omega
    unfold addressRange
    rw [hc, if_pos (by omega), if_neg (by
      rintro ⟨h4, h5⟩
      exact h2 h5 (List.length_eq_zero_iff.1 h4.symm))]
    simp only [Res.ok_bind, Res.pure_eq, List.drop_zero, List.take_length]
    rfl

/-- C68 is false of the code: printing any other received DATA frame is undefined behaviour. -/
theorem C68_unprintable_violated [Platform] (flags : UInt8) (sid : UInt32) (raw : Bytes) (s : Stream)
    (hl : raw.length < 2 ^ 24) (h : ¬ DataPrintable flags raw) :
    ((DataFrame.new flags sid raw).dump s).IsUb := by
  have key : (DataFrame.new flags sid raw).parts.IsUb →
      ((DataFrame.new flags sid raw).dump s).IsUb := by
    rintro ⟨k, hk⟩
    unfold DataFrame.dump
    rw [hk]
    exact ⟨k, rfl⟩
  apply key
  rw [parts_new]
  by_cases hp : hasPadded flags
  · rw [if_pos hp]
    cases raw with
    | nil => exact ⟨_, rfl⟩
    | cons pad rest =>
        rw [readAt_ok (by simp), Res.ok_bind, List.getElem_cons_zero]
        by_cases hpl : pad.toNat ≤ rest.length
        · rw [dataLength_fit _ _ hl (by simp; omega)]
          unfold addressRange
          rw [if_pos (by simp; omega), if_pos]
          · exact ⟨_, rfl⟩
          · by_contra hc
            refine h ⟨fun _ => ?_, fun hst => ?_⟩
            · rintro (h0 | ⟨p', r', h0, h1⟩)
              · cases h0
              · injection h0 with h2 h3
                subst h2 h3
                simp only [List.length_cons] at h1
                omega
            · rw [if_pos hp]
              by_contra hlt
              exact hc ⟨by simp only [List.length_cons] at hlt ⊢; omega, hst⟩
        · have := dataLength_unfit (pad :: rest).length pad hl (by simp; omega)
          unfold addressRange
          rw [if_neg (by omega)]
          exact ⟨_, rfl⟩
  · rw [if_neg hp]
    have hc : (castToFhLength raw.length).toNat = raw.length := by
      unfold castToFhLength
      simp only [UInt32.toNat_ofNat']
      omega
    have h0 : raw = [] ∧ ‹Platform›.strictIndex = true := by
      by_contra hn
      refine h ⟨fun hc => absurd hc hp, fun hst => ?_⟩
      rw [if_neg hp]
      exact fun h0 => hn ⟨h0, hst⟩
    unfold addressRange
    rw [hc, if_pos (by omega), if_pos ⟨by rw [h0.1]; rfl, h0.2⟩]
    exact ⟨_, rfl⟩

attribute [local instance] x86 in
example : DataPrintable 8 [2, 104, 105, 0, 0] ∧ ¬ DataPrintable 8 [2, 104] ∧
    DataPrintable 0 [2, 104] := by
  refine ⟨⟨fun _ => ?_, fun h => by cases h⟩, fun h => h.1 (by decide) (Or.inr ⟨2, [104], rfl, by decide⟩),
    ⟨fun h => absurd h (by decide), fun h => by cases h⟩⟩
  rintro (h | ⟨p, r, h, h2⟩)
  · cases h
  · injection h with h3 h4
    subst h3 h4
    exact absurd h2 (by decide)

/-! ## C69 -/

theorem errorCode_ok (code : UInt32) (s : Stream) : ∃ s', dumpErrorCode code s = .ok s' := by
  unfold dumpErrorCode
  split
  · rename_i h
    have hall : (List.range 14).all (fun n => (errorCodesStrMap.lookup n).isSome) = true := by
      decide +kernel
    have := List.all_eq_true.1 hall code.toNat (List.mem_range.2 h)
    obtain ⟨v, hv⟩ := Option.isSome_iff_exists.1 this
    unfold mapAt
    rw [hv]
    exact ⟨_, rfl⟩
  · exact ⟨_, rfl⟩

/-- C69, the part that holds: printing a GOAWAY frame whose debug data is empty or has a zero octet
succeeds; what is shown of the debug data is what precedes the zero octet. Missing: the other
frames, see `C69_unterminated_violated`. -/
theorem C69_goaway_partial (f : GoawayFrame) (s : Stream) (h : DebugPrintable f.payload.debugData) :
    ∃ s' before shown rest, f.dump s = .ok s' ∧ s'.out = before ++ shown ++ bstr "\n" ∧
      f.payload.debugData = shown ++ rest ∧ 0 ∉ shown ∧ (rest = [] ∨ rest.head? = some 0) := by
  unfold GoawayFrame.dump
  obtain ⟨s1, hs1⟩ := errorCode_ok f.payload.errorCode
    ((dumpStart (bstr "=== GOAWAY FRAME ===\n") f.header s).text
    (bstr "  R: " ++ Stream.toString f.payload.reserved.toNat ++ bstr "\n" ++
      bstr "  Last-Stream-ID: " ++ Stream.toString f.payload.lastStreamId.toNat ++ bstr "\n"))
  simp only [hs1, Res.ok_bind]
  by_cases he : f.payload.debugData = []
  · rw [he]
    exact ⟨_, (s1.text (bstr "  Additional Debug Data: ")).out, [], [], rfl, by simp [Stream.text],
      rfl, by simp, Or.inl rfl⟩
  · have h0 : 0 ∈ f.payload.debugData := h.resolve_left he
    rw [if_neg (by simpa using he)]
    unfold cString
    rw [if_pos h0]
    refine ⟨_, (s1.text (bstr "  Additional Debug Data: ")).out,
      f.payload.debugData.takeWhile (· ≠ 0), f.payload.debugData.dropWhile (· ≠ 0), rfl,
      by simp [Stream.text], (List.takeWhile_append_dropWhile).symm, ?_, ?_⟩
    · intro hc
      have := List.all_takeWhile (p := fun x : UInt8 => decide (x ≠ 0)) (l := f.payload.debugData)
      have := List.all_eq_true.1 this 0 hc
      simp at this
    · cases hd : f.payload.debugData.dropWhile (· ≠ 0) with
      | nil => exact Or.inl rfl
      | cons b bs =>
          right
          have := List.head_dropWhile_not (p := fun x : UInt8 => decide (x ≠ 0)) (l := f.payload.debugData)
            (by rw [hd]; simp)
          simp only [hd, List.head_cons] at this
          simpa using this

/-- C69 is false of the code: debug data without a zero octet (any text a peer sends) is read past
its end. -/
theorem C69_unterminated_violated (f : GoawayFrame) (s : Stream)
    (h : ¬ DebugPrintable f.payload.debugData) : f.dump s = .ub .outOfBounds := by
  unfold GoawayFrame.dump
  obtain ⟨s1, hs1⟩ := errorCode_ok f.payload.errorCode
    ((dumpStart (bstr "=== GOAWAY FRAME ===\n") f.header s).text
    (bstr "  R: " ++ Stream.toString f.payload.reserved.toNat ++ bstr "\n" ++
      bstr "  Last-Stream-ID: " ++ Stream.toString f.payload.lastStreamId.toNat ++ bstr "\n"))
  simp only [hs1, Res.ok_bind]
  have h1 : f.payload.debugData ≠ [] := fun h0 => h (Or.inl h0)
  have h2 : 0 ∉ f.payload.debugData := fun h0 => h (Or.inr h0)
  rw [if_neg (by simpa using h1)]
  unfold cString
  rw [if_neg h2]
  rfl

example : ¬ DebugPrintable (bstr "bye") ∧ DebugPrintable (bstr "bye" ++ [0]) ∧ DebugPrintable [] := by
  decide +kernel

/-! ## C70 -/

theorem block_ok {es : HeaderBlock} (h : ∀ e ∈ es, WellTyped e) (s : Stream) :
    ∃ s', dumpBlock es s = .ok s' := by
  induction es generalizing s with
  | nil => exact ⟨s, rfl⟩
  | cons e es ih =>
      unfold dumpBlock
      obtain ⟨p, v⟩ := e
      have hd : ∃ s1, dumpEntry ⟨p, v⟩ s = .ok s1 := by
        unfold dumpEntry
        rcases h ⟨p, v⟩ (by simp) with ⟨h1, n, h2⟩ | ⟨h1, x, h2⟩
        · simp only at h1 h2
          subst h1 h2
          rw [if_pos rfl]
          exact ⟨_, rfl⟩
        · simp only at h1 h2
          subst h2
          rw [if_neg h1]
          exact ⟨_, rfl⟩
      obtain ⟨s1, h1⟩ := hd
      rw [h1, Res.ok_bind]
      exact ih (fun e he => h e (List.mem_cons_of_mem _ he)) s1

theorem settings_ok (ps : SfPayload) (s : Stream) : ∃ s', dumpSettings ps s = .ok s' := by
  induction ps generalizing s with
  | nil => exact ⟨s, rfl⟩
  | cons p ps ih =>
      unfold dumpSettings
      have hd : ∃ s1, dumpSetting p s = .ok s1 := by
        unfold dumpSetting
        split
        · exact ⟨_, rfl⟩
        · rename_i h
          have hall : (List.range 7).all (fun n => n = 0 || (sfParameterStrMap.lookup n).isSome) = true := by
            decide +kernel
          have := List.all_eq_true.1 hall p.1.toNat (List.mem_range.2 (by omega))
          simp only [Bool.or_eq_true, decide_eq_true_eq] at this
          obtain ⟨v, hv⟩ := Option.isSome_iff_exists.1 (this.resolve_left (by omega))
          unfold mapAt
          rw [hv]
          exact ⟨_, rfl⟩
      obtain ⟨s1, h1⟩ := hd
      rw [h1, Res.ok_bind]
      exact ih s1

/-- C70. Every frame obtained from `build_frame`, of a class other than DATA and GOAWAY, can be
printed: no exception, no undefined behaviour. -/
theorem C70_printable [Platform] (fh : FrameHeader) (raw : Bytes) (table : DynamicTable) (f : Frame)
    (h : buildFrame fh raw table = .ok f) (hd : ∀ g, f ≠ .data g) (hg : ∀ g, f ≠ .goaway g)
    (s : Stream) : ∃ s', f.dump s = .ok s' := by
  cases built_of_ok h with
  | data => exact absurd rfl (hd _)
  | headers _ f hf =>
      show ∃ s', HeadersFrame.dump f s = .ok s'
      unfold HeadersFrame.dump
      obtain ⟨s1, h1⟩ := block_ok (fun e he => ((headers_entries hf).2 e he).typed) _
      simp only
      rw [h1]
      exact ⟨_, rfl⟩
  | rawHeaders => exact ⟨_, rfl⟩
  | priority => exact ⟨_, rfl⟩
  | rstStream _ f _ => exact errorCode_ok _ _
  | settings _ p _ => exact settings_ok _ _
  | pushPromise _ f hf =>
      show ∃ s', PushPromiseFrame.dump f s = .ok s'
      unfold PushPromiseFrame.dump
      obtain ⟨s1, h1⟩ := block_ok (fun e he => ((pushPromise_entries hf).2 e he).typed) _
      simp only
      rw [h1]
      exact ⟨_, rfl⟩
  | ping => exact ⟨_, rfl⟩
  | goaway => exact absurd rfl (hg _)
  | windowUpdate => exact ⟨_, rfl⟩
  | continuation _ f hf =>
      exact block_ok (fun e he => ((continuation_entries hf).2 e he).typed) _

/-- C70. No frame obtained from `build_frame`, of whatever class, makes printing throw or hang. -/
theorem C70_never_throws [Platform] (fh : FrameHeader) (raw : Bytes) (table : DynamicTable) (f : Frame)
    (h : buildFrame fh raw table = .ok f) (hl : raw.length < 2 ^ 24) (s : Stream) :
    (∃ s', f.dump s = .ok s') ∨ (f.dump s).IsUb := by
  by_cases hd : ∃ g, f = .data g
  · obtain ⟨g, rfl⟩ := hd
    cases built_of_ok h with
    | data _ =>
        by_cases hp : DataPrintable fh.flags raw
        · obtain ⟨_, _, -, -, -, h1⟩ := C68_data_partial fh.flags fh.streamId raw s hl hp
          exact Or.inl ⟨_, h1⟩
        · exact Or.inr (C68_unprintable_violated fh.flags fh.streamId raw s hl hp)
  · by_cases hg : ∃ g, f = .goaway g
    · obtain ⟨g, rfl⟩ := hg
      by_cases hp : DebugPrintable g.payload.debugData
      · obtain ⟨s', _, _, _, h1, -⟩ := C69_goaway_partial g s hp
        exact Or.inl ⟨s', h1⟩
      · exact Or.inr ⟨_, C69_unterminated_violated g s hp⟩
    · exact Or.inl (C70_printable fh raw table f h (fun g hc => hd ⟨g, hc⟩) (fun g hc => hg ⟨g, hc⟩) s)

attribute [local instance] x86 in
example : (do let f ← buildFrame ⟨4, 3, 0, 0, 7⟩ [0, 0, 0, 99] .default; f.dump ⟨[], false⟩) =
    .ok ⟨bstr ("=== RST_STREAM FRAME ===\n[Frame Header]\n  length    : 4\n  type      : 3\n" ++
      "  flags     : 0\n  reserved  : 0\n  stream id : 7\n[PAYLOAD]\n" ++
      "  Error Code: UNKNOWN_ERROR(99)\n"), false⟩ := by decide +kernel

/-! ## C67 -/

/-- C67, the part that holds: for every frame but SETTINGS, whatever the history of the stream, the
outcome and the text added are the same. Missing: SETTINGS, see `C67_settings_violated`. -/
theorem C67_independent_partial [Platform] (f : Frame) (h : ∀ g, f ≠ .settings g) (s1 s2 : Stream) :
    printedText f s1 = printedText f s2 := by
  have key : ∀ s : Stream, printedText f s = f.dump .fresh >>= fun p => .ok p.out := by
    intro s
    unfold printedText
    rw [(adds_frame f h).uniform s]
    cases f.dump .fresh <;> simp [Stream.add]
  rw [key, key]

theorem dumpSetting_base (p : UInt16 × UInt32) (o x : Bytes) (h : Bool) :
    dumpSetting p ⟨o ++ x, h⟩ = dumpSetting p ⟨x, h⟩ >>= fun q => .ok ⟨o ++ q.out, q.hex⟩ := by
  unfold dumpSetting
  split
  · generalize mapAt sfParameterStrMap 7 = r
    cases r <;> simp [Stream.text, Stream.number]
  · generalize mapAt sfParameterStrMap p.1.toNat = r
    cases r <;> simp [Stream.text, Stream.number]

theorem dumpSettings_base (ps : SfPayload) (o x : Bytes) (h : Bool) :
    dumpSettings ps ⟨o ++ x, h⟩ = dumpSettings ps ⟨x, h⟩ >>= fun q => .ok ⟨o ++ q.out, q.hex⟩ := by
  induction ps generalizing x h with
  | nil => rfl
  | cons p ps ih =>
      unfold dumpSettings
      rw [dumpSetting_base]
      generalize dumpSetting p ⟨x, h⟩ = r
      cases r with
      | ok q => exact ih q.out q.hex
      | throw e => rfl
      | ub k => rfl
      | diverge => rfl

/-- C67, SETTINGS: the text depends on the base the stream is in, on nothing else. Missing:
independence of the base, see `C67_settings_violated`. -/
theorem C67_settings_base_partial [Platform] (f : SettingsFrame) (s1 s2 : Stream)
    (h : s1.hex = s2.hex) : printedText (.settings f) s1 = printedText (.settings f) s2 := by
  have key : ∀ s : Stream, printedText (.settings f) s =
      SettingsFrame.dump f ⟨[], s.hex⟩ >>= fun p => .ok p.out := by
    intro s
    show (SettingsFrame.dump f s >>= _) = _
    unfold SettingsFrame.dump
    have : dumpStart (bstr "=== SETTINGS FRAME ===\n") f.header s =
        ⟨s.out ++ (dumpStart (bstr "=== SETTINGS FRAME ===\n") f.header ⟨[], s.hex⟩).out,
          (dumpStart (bstr "=== SETTINGS FRAME ===\n") f.header ⟨[], s.hex⟩).hex⟩ := by
      simp [dumpStart, FrameHeader.dump, Stream.text]
    rw [this, dumpSettings_base]
    generalize dumpSettings _ _ = r
    cases r <;> simp
  rw [key, key, h]

/-- C67, SETTINGS: values below ten are printed alike in both bases. Missing: values of ten and
more, see `C67_settings_violated`. -/
theorem C67_settings_small_partial [Platform] (f : SettingsFrame) (s1 s2 : Stream)
    (h : ∀ p ∈ f.payload, p.2.toNat < 10) :
    printedText (.settings f) s1 = printedText (.settings f) s2 := by
  have hd : ∀ n b : Nat, n < 10 → n < b → digits b n = [digitChar n] := by
    intro n b _ hb
    unfold digits digitsAux
    rw [if_pos hb]
  have key : ∀ (ps : SfPayload) (o : Bytes), (∀ p ∈ ps, p.2.toNat < 10) →
      (dumpSettings ps ⟨o, true⟩ >>= fun q => .ok q.out) =
        (dumpSettings ps ⟨o, false⟩ >>= fun q => .ok q.out) := by
    intro ps
    induction ps with
    | nil => intro o _; rfl
    | cons p ps ih =>
        intro o hp
        have hs : ∀ b : Bool, dumpSetting p ⟨o, b⟩ =
            dumpSetting p ⟨o, false⟩ >>= fun q => .ok ⟨q.out, b⟩ := by
          intro b
          have hn := hp p (by simp)
          unfold dumpSetting Stream.number Stream.text
          cases b <;>
          · simp only [Bool.false_eq_true, if_false, if_true]
            rw [hd _ 10 hn (by omega), ]
            try rw [hd _ 16 hn (by omega)]
            split
            · generalize mapAt sfParameterStrMap 7 = r
              cases r <;> rfl
            · generalize mapAt sfParameterStrMap p.1.toNat = r
              cases r <;> rfl
        unfold dumpSettings
        rw [hs true, hs false]
        generalize dumpSetting p ⟨o, false⟩ = r
        cases r with
        | ok q => exact ih q.out (fun x hx => hp x (List.mem_cons_of_mem _ hx))
        | throw e => rfl
        | ub k => rfl
        | diverge => rfl
  have main : ∀ b : Bool, printedText (.settings f) ⟨[], b⟩ = printedText (.settings f) ⟨[], false⟩ := by
    intro b
    cases b
    · rfl
    · have := key f.payload (dumpStart (bstr "=== SETTINGS FRAME ===\n") f.header ⟨[], false⟩).out h
      exact this
  rw [C67_settings_base_partial f s1 ⟨[], s1.hex⟩ rfl, C67_settings_base_partial f s2 ⟨[], s2.hex⟩ rfl,
    main s1.hex, main s2.hex]

theorem hexBytes_hex (e : Bytes) (n : Nat) (bs : Bytes) (s : Stream) :
    (hexBytes e n bs s).hex = (s.hex || !bs.isEmpty) := by
  induction bs generalizing n s with
  | nil => simp [hexBytes]
  | cons b bs ih => simp [hexBytes, ih, Stream.text, Stream.hexByte]

theorem dumpBlock_hex {es : HeaderBlock} {s s' : Stream} (h : dumpBlock es s = .ok s') :
    s'.hex = s.hex := by
  induction es generalizing s with
  | nil => rw [← Res.ok.inj h]
  | cons e es ih =>
      unfold dumpBlock at h
      obtain ⟨s1, h1, h2⟩ := Res.bind_eq_ok.1 h
      rw [ih h2]
      unfold dumpEntry at h1
      split at h1
      · obtain ⟨n, -, h3⟩ := Res.bind_eq_ok.1 h1
        rw [← Res.ok.inj h3]; rfl
      · obtain ⟨n, -, h3⟩ := Res.bind_eq_ok.1 h1
        rw [← Res.ok.inj h3]; rfl

theorem dumpErrorCode_hex {c : UInt32} {s s' : Stream} (h : dumpErrorCode c s = .ok s') :
    s'.hex = s.hex := by
  unfold dumpErrorCode at h
  split at h
  · obtain ⟨n, -, h3⟩ := Res.bind_eq_ok.1 h
    rw [← Res.ok.inj h3]; rfl
  · obtain ⟨n, -, h3⟩ := Res.bind_eq_ok.1 h
    rw [← Res.ok.inj h3]; rfl

theorem dumpSettings_hex {ps : SfPayload} {s s' : Stream} (h : dumpSettings ps s = .ok s') :
    s'.hex = s.hex := by
  induction ps generalizing s with
  | nil => rw [← Res.ok.inj h]
  | cons e es ih =>
      unfold dumpSettings at h
      obtain ⟨s1, h1, h2⟩ := Res.bind_eq_ok.1 h
      rw [ih h2]
      unfold dumpSetting at h1
      split at h1
      · obtain ⟨n, -, h3⟩ := Res.bind_eq_ok.1 h1
        rw [← Res.ok.inj h3]; rfl
      · obtain ⟨n, -, h3⟩ := Res.bind_eq_ok.1 h1
        rw [← Res.ok.inj h3]; rfl

theorem dumpPadding_hex (flags : UInt8) (p : Bytes) (s : Stream) :
    (dumpPadding flags p s).hex = true ↔ s.hex = true ∨ (hasPadded flags ∧ p ≠ []) := by
  unfold dumpPadding
  rw [padded_ite]
  split
  · rename_i h
    simp [Stream.text, hexBytes_hex, h]
  · rename_i h
    simp [Stream.text, h]

theorem dumpStart_hex (t : Bytes) (fh : FrameHeader) (s : Stream) : (dumpStart t fh s).hex = s.hex :=
  rfl

/-- C67. Exactly which frames switch the stream to hexadecimal: those that print octets. -/
theorem C67_base_change [Platform] (f : Frame) (s s' : Stream) (h : f.dump s = .ok s')
    (hd : ∀ g, f = .data g → g = DataFrame.new g.header.flags g.header.streamId g.payload ∧
      g.payload.length < 2 ^ 24) :
    s'.hex = true ↔ s.hex = true ∨ PrintsOctets f := by
  cases f with
  | data f =>
      obtain ⟨h1, h2⟩ := hd f rfl
      change f.dump s = _ at h
      rw [h1] at h
      by_cases hp : DataPrintable f.header.flags f.payload
      · obtain ⟨data, padding, e1, e2, e3, e4⟩ :=
          C68_data_partial f.header.flags f.header.streamId f.payload s h2 hp
        rw [e4] at h
        rw [← Res.ok.inj h]
        simp only [Stream.text, hexBytes_hex, dumpStart_hex, PrintsOctets]
        by_cases hpd : hasPadded f.header.flags
        · rw [e1]
          unfold withPadding
          rw [if_pos hpd]
          simp only [padded, List.head?_cons, hpd, true_and, Bool.or_eq_true, Bool.not_eq_true',
            ne_eq, Option.some.injEq]
          apply or_congr Iff.rfl
          cases padding with
          | nil => simp
          | cons b bs =>
              simp only [List.length_cons] at e2 ⊢
              simp only [List.isEmpty_cons, true_iff]
              intro hc
              have := congrArg UInt8.toNat hc
              simp only [UInt8.toNat_ofNat', UInt8.toNat_zero] at this
              omega
        · rw [e3 hpd]
          simp [hpd]
      · obtain ⟨k, hk⟩ := C68_unprintable_violated f.header.flags f.header.streamId f.payload s h2 hp
        rw [hk] at h
        cases h
  | headers f =>
      change f.dump s = _ at h
      unfold HeadersFrame.dump at h
      obtain ⟨s1, h1, h2⟩ := Res.bind_eq_ok.1 h
      rw [← Res.ok.inj h2, dumpPadding_hex, dumpBlock_hex h1]
      rfl
  | priority f => rw [← Res.ok.inj h]; simp [PrintsOctets, Stream.text, dumpStart_hex]
  | rstStream f => rw [dumpErrorCode_hex h]; simp [PrintsOctets, dumpStart_hex]
  | settings f => rw [dumpSettings_hex h]; simp [PrintsOctets, dumpStart_hex]
  | pushPromise f =>
      change f.dump s = _ at h
      unfold PushPromiseFrame.dump at h
      obtain ⟨s1, h1, h2⟩ := Res.bind_eq_ok.1 h
      rw [← Res.ok.inj h2, dumpPadding_hex, dumpBlock_hex h1]
      rfl
  | ping f =>
      rw [← Res.ok.inj h]
      simp [PrintsOctets, Stream.text, hexBytes_hex, dumpStart_hex]
  | goaway f =>
      change f.dump s = _ at h
      unfold GoawayFrame.dump at h
      obtain ⟨s1, h1, h2⟩ := Res.bind_eq_ok.1 h
      have e := dumpErrorCode_hex h1
      have : s'.hex = s1.hex := by
        simp only at h2
        split at h2
        · rw [← Res.ok.inj h2]; rfl
        · obtain ⟨d, -, h3⟩ := Res.bind_eq_ok.1 h2
          rw [← Res.ok.inj h3]; rfl
      rw [this, e]
      simp [PrintsOctets, Stream.text, dumpStart_hex]
  | windowUpdate f => rw [← Res.ok.inj h]; simp [PrintsOctets, Stream.text, dumpStart_hex]
  | continuation f =>
      rw [dumpBlock_hex h]; simp [PrintsOctets, Stream.text, dumpStart_hex]
  | raw f =>
      rw [← Res.ok.inj h]
      simp [PrintsOctets, Stream.text, hexBytes_hex, dumpStart_hex]

/-- C67 is false of the code: on a stream on which a PING frame was printed before, a SETTINGS frame
with INITIAL_WINDOW_SIZE 65535 is printed as `ffff`. Both frames can be received. -/
theorem C67_settings_violated [P : Platform] (s0 : Stream) :
    ∃ ping settings s, buildFrame ⟨8, 6, 0, 0, 0⟩ [0, 0, 0, 0, 0, 0, 0, 1] .default = .ok ping ∧
      buildFrame ⟨6, 4, 0, 0, 0⟩ [0, 4, 0, 0, 255, 255] .default = .ok settings ∧
      ping.dump s0 = .ok s ∧
      (∃ before, printedText settings s = .ok (before ++ bstr "SIZE: ffff\n")) ∧
      (s0.hex = false →
        ∃ before, printedText settings s0 = .ok (before ++ bstr "SIZE: 65535\n")) := by
  have h1 : buildFrame ⟨8, 6, 0, 0, 0⟩ [0, 0, 0, 0, 0, 0, 0, 1] .default =
      .ok (.ping ⟨⟨8, 6, 0, 0, 0⟩, [0, 0, 0, 0, 0, 0, 0, 1]⟩) := by
    rcases P with ⟨_ | _, _ | _⟩ <;> decide +kernel
  have h2 : buildFrame ⟨6, 4, 0, 0, 0⟩ [0, 4, 0, 0, 255, 255] .default =
      .ok (.settings ⟨⟨6, 4, 0, 0, 0⟩, [(4, 65535)]⟩) := by
    rcases P with ⟨_ | _, _ | _⟩ <;> decide +kernel
  obtain ⟨s, h3⟩ := C70_printable _ _ _ _ h1 (by simp) (by simp) s0
  have h4 : s.hex = true :=
    (C67_base_change _ _ _ h3 (by simp)).2 (Or.inr (by simp [PrintsOctets]))
  refine ⟨_, _, s, h1, h2, h3, ?_, ?_⟩
  · rw [C67_settings_base_partial _ s ⟨[], true⟩ h4]
    exact ⟨bstr "=== SETTINGS FRAME ===\n[Frame Header]\n  length    : 6\n  type      : 4\n" ++
      bstr "  flags     : 0\n  reserved  : 0\n  stream id : 0\n[PAYLOAD]\n  " ++
      bstr "SETTINGS_INITIAL_WINDOW_",
      show (SettingsFrame.dump _ _ >>= fun s' => .ok (s'.out.drop 0)) = _ by decide +kernel⟩
  · intro h0
    rw [C67_settings_base_partial _ s0 ⟨[], false⟩ h0]
    exact ⟨bstr "=== SETTINGS FRAME ===\n[Frame Header]\n  length    : 6\n  type      : 4\n" ++
      bstr "  flags     : 0\n  reserved  : 0\n  stream id : 0\n[PAYLOAD]\n  " ++
      bstr "SETTINGS_INITIAL_WINDOW_",
      show (SettingsFrame.dump _ _ >>= fun s' => .ok (s'.out.drop 0)) = _ by decide +kernel⟩

attribute [local instance] x86 in
example : PrintsOctets (.ping ⟨⟨8, 6, 0, 0, 0⟩, [1, 2, 3, 4, 5, 6, 7, 8]⟩) ∧
    ¬ PrintsOctets (.data (DataFrame.new 8 1 [0, 104])) ∧
    (do let s ← (Frame.data (DataFrame.new 8 1 [0, 104])).dump ⟨[], false⟩; return s.hex) =
      .ok false := by
  exact ⟨by simp [PrintsOctets], by simp [PrintsOctets, DataFrame.new], by decide +kernel⟩

end Mh2c
