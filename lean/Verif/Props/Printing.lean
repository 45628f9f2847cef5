/-
C74, C75, C77: what the printed text says.
-/
import Mathlib.Data.Nat.Digits.Lemmas
import Verif.Proofs.Text
import Verif.Props.Dump

namespace Mh2c

open Rfc Mh2c.Stream

/-! ## C74 -/

/-- RFC 7540 6.2: the PRIORITY flag. -/
theorem priority_shown (flags : UInt8) (n : Nat) :
    (if isFlagSet flags flagPriority then Stream.toString n else []) = showsPriority flags n := by
  have h : ∀ b : UInt8, isFlagSet b flagPriority = b.toNat.testBit 5 := fun b =>
    of_decide_eq_true <| u8_all (p := fun b => decide (isFlagSet b flagPriority = b.toNat.testBit 5))
      (by decide +kernel) b
  unfold showsPriority
  rw [h, toString_eq]

/-- C74. The text printed for a frame of any class but DATA and GOAWAY is exactly: title, the five
header fields in decimal, and the payload in the layout of `payloadText`. Settings values follow
the base of the stream (C67). -/
theorem C74_text [Platform] (f : Frame) (s s' : Stream) (h : f.dump s = .ok s')
    (hd : ∀ g, f ≠ .data g) (hg : ∀ g, f ≠ .goaway g) (hm : NoMisprint f) :
    s'.out = s.out ++ startText f ++ payloadText (if s.hex then 16 else 10) f := by
  cases f with
  | data f => exact absurd rfl (hd f)
  | goaway f => exact absurd rfl (hg f)
  | headers f =>
      change f.dump s = _ at h
      unfold HeadersFrame.dump at h
      obtain ⟨s1, h1, h2⟩ := Res.bind_eq_ok.1 h
      rw [← Res.ok.inj h2, padding_eq, block_eq h1]
      simp only [priority_shown]
      rw [show ∀ t, (Stream.text t (dumpStart (bstr "=== HEADERS FRAME ===\n") f.header s)).out =
        (dumpStart (bstr "=== HEADERS FRAME ===\n") f.header s).out ++ t from fun _ => rfl,
        show dumpStart (bstr "=== HEADERS FRAME ===\n") f.header s =
          dumpStart (bstr "=== HEADERS FRAME ===\n") (Frame.headers f).header s from rfl,
        start_eq (.headers f) (bstr "=== HEADERS FRAME ===\n") rfl]
      simp only [payloadText, unlines, List.flatMap_append, List.flatMap_cons, List.flatMap_nil,
        List.append_assoc, List.append_nil]
      rfl
  | priority f =>
      change f.dump s = _ at h
      rw [← Res.ok.inj h, show ∀ t (s : Stream), (Stream.text t s).out = s.out ++ t from fun _ _ => rfl,
        show dumpStart _ f.header s = dumpStart _ (Frame.priority f).header s from rfl,
        start_eq (.priority f) (bstr "=== PRIORITY FRAME ===\n") rfl]
      simp only [payloadText, unlines, List.flatMap_cons, List.flatMap_nil, toString_eq,
        List.append_assoc, List.append_nil]
      rfl
  | rstStream f =>
      rw [error_eq hm h, show dumpStart _ f.header s = dumpStart _ (Frame.rstStream f).header s from rfl,
        start_eq (.rstStream f) (bstr "=== RST_STREAM FRAME ===\n") rfl]
      rfl
  | settings f =>
      rw [settings_eq hm h, show dumpStart _ f.header s = dumpStart _ (Frame.settings f).header s from rfl,
        start_eq (.settings f) (bstr "=== SETTINGS FRAME ===\n") rfl]
      rfl
  | pushPromise f =>
      change f.dump s = _ at h
      unfold PushPromiseFrame.dump at h
      obtain ⟨s1, h1, h2⟩ := Res.bind_eq_ok.1 h
      rw [← Res.ok.inj h2, padding_eq, block_eq h1,
        show ∀ t (s : Stream), (Stream.text t s).out = s.out ++ t from fun _ _ => rfl,
        show dumpStart _ f.header s = dumpStart _ (Frame.pushPromise f).header s from rfl,
        start_eq (.pushPromise f) (bstr "=== PUSH_PROMISE FRAME ===\n") rfl]
      simp only [payloadText, unlines, List.flatMap_append, List.flatMap_cons, List.flatMap_nil,
        List.append_assoc, List.append_nil, toString_eq]
      rfl
  | ping f =>
      change f.dump s = _ at h
      rw [← Res.ok.inj h, show ∀ t (s : Stream), (Stream.text t s).out = s.out ++ t from fun _ _ => rfl,
        hexBytes_eq, show dumpStart _ f.header s = dumpStart _ (Frame.ping f).header s from rfl,
        start_eq (.ping f) (bstr "=== PING_STREAM FRAME ===\n") rfl]
      simp only [payloadText, List.append_assoc]
      rfl
  | windowUpdate f =>
      change f.dump s = _ at h
      rw [← Res.ok.inj h, show ∀ t (s : Stream), (Stream.text t s).out = s.out ++ t from fun _ _ => rfl,
        show dumpStart _ f.header s = dumpStart _ (Frame.windowUpdate f).header s from rfl,
        start_eq (.windowUpdate f) (bstr "=== WINDOW_UPDATE FRAME ===\n") rfl]
      simp only [payloadText, unlines, List.flatMap_cons, List.flatMap_nil, toString_eq,
        List.append_assoc, List.append_nil]
      rfl
  | continuation f =>
      rw [block_eq h, show ∀ t (s : Stream), (Stream.text t s).out = s.out ++ t from fun _ _ => rfl,
        show dumpStart _ f.header s = dumpStart _ (Frame.continuation f).header s from rfl,
        start_eq (.continuation f) (bstr "=== CONTINUATION FRAME ===\n") rfl]
      simp only [payloadText, unlines, List.flatMap_cons, List.append_assoc]
      rfl
  | raw f =>
      change f.dump s = _ at h
      rw [← Res.ok.inj h, show ∀ t (s : Stream), (Stream.text t s).out = s.out ++ t from fun _ _ => rfl,
        hexBytes_eq, show dumpStart _ f.header s = dumpStart _ (Frame.raw f).header s from rfl,
        start_eq (.raw f) (bstr "=== GENERIC FRAME (unimplemented) ===\n") rfl]
      simp only [payloadText, List.append_assoc]
      rfl

/-- C74, DATA: a received DATA frame that can be printed (C68) is printed as pad length, indented
data and padding octets, split as RFC 7540 6.1 does. -/
theorem C74_data [Platform] (flags : UInt8) (sid : UInt32) (raw : Bytes) (s : Stream)
    (hl : raw.length < 2 ^ 24) (h : DataPrintable flags raw) :
    ∃ data padding s', raw = withPadding flags data padding ∧ padding.length ≤ 255 ∧
      (¬ hasPadded flags → padding = []) ∧
      (Frame.data (DataFrame.new flags sid raw)).dump s = .ok s' ∧
      s'.out = s.out ++ startText (.data (DataFrame.new flags sid raw)) ++ dataText data padding := by
  obtain ⟨data, padding, h1, h2, h3, h4⟩ := C68_data_partial flags sid raw s hl h
  refine ⟨data, padding, _, h1, h2, h3, h4, ?_⟩
  rw [show ∀ t (s : Stream), (Stream.text t s).out = s.out ++ t from fun _ _ => rfl, hexBytes_eq,
    show ∀ t (s : Stream), (Stream.text t s).out = s.out ++ t from fun _ _ => rfl,
    show dumpStart _ (DataFrame.new flags sid raw).header s =
      dumpStart _ (Frame.data (DataFrame.new flags sid raw)).header s from rfl,
    start_eq (.data (DataFrame.new flags sid raw)) (bstr "=== DATA FRAME ===\n") rfl]
  simp only [dataText, unlines, List.flatMap_cons, List.flatMap_nil, toString_eq, indent_eq,
    List.append_assoc, List.append_nil]
  rfl

/-- C74, GOAWAY: the text of a GOAWAY frame that can be printed (C69); the debug data is shown up
to its first zero octet. -/
theorem C74_goaway [Platform] (f : GoawayFrame) (s : Stream) (h : DebugPrintable f.payload.debugData)
    (hm : NoMisprint (.goaway f)) :
    ∃ s' shown rest, (Frame.goaway f).dump s = .ok s' ∧ f.payload.debugData = shown ++ rest ∧
      0 ∉ shown ∧ (rest = [] ∨ rest.head? = some 0) ∧
      s'.out = s.out ++ startText (.goaway f) ++ goawayText f.payload shown := by
  obtain ⟨s1, h1⟩ := errorCode_ok f.payload.errorCode
    ((dumpStart (bstr "=== GOAWAY FRAME ===\n") f.header s).text
    (bstr "  R: " ++ Stream.toString f.payload.reserved.toNat ++ bstr "\n" ++
      bstr "  Last-Stream-ID: " ++ Stream.toString f.payload.lastStreamId.toNat ++ bstr "\n"))
  obtain ⟨s', before, shown, rest, h2, h3, h4, h5, h6⟩ := C69_goaway_partial f s h
  refine ⟨s', shown, rest, h2, h4, h5, h6, ?_⟩
  have hs : shown = if f.payload.debugData.isEmpty then [] else
      f.payload.debugData.takeWhile (· ≠ 0) := by
    rw [h4]
    split
    · rename_i he; simp only [List.isEmpty_iff, List.append_eq_nil_iff] at he; exact he.1
    · rw [List.takeWhile_append_of_pos (by
        intro b hb
        simp only [ne_eq, decide_eq_true_eq]
        rintro rfl
        exact h5 hb)]
      rcases h6 with rfl | h6
      · simp
      · cases rest with
        | nil => simp
        | cons b bs =>
            cases h6
            simp
  change f.dump s = _ at h2
  unfold GoawayFrame.dump at h2
  simp only [h1, Res.ok_bind] at h2
  have h7 : s' = ((s1.text (bstr "  Additional Debug Data: ")).text shown).text (bstr "\n") := by
    by_cases he : f.payload.debugData = []
    · simp only [he, List.isEmpty_nil, if_true] at h2 hs
      rw [hs]
      exact (Res.ok.inj h2).symm
    · have h0 : 0 ∈ f.payload.debugData := h.resolve_left he
      rw [if_neg (by simpa using he)] at hs
      rw [if_neg (by simpa using he)] at h2
      unfold cString at h2
      rw [if_pos h0, ← hs] at h2
      exact (Res.ok.inj h2).symm
  rw [h7]
  simp only [show ∀ t (s : Stream), (Stream.text t s).out = s.out ++ t from fun _ _ => rfl]
  rw [error_eq hm h1, show ∀ t (s : Stream), (Stream.text t s).out = s.out ++ t from fun _ _ => rfl,
    show dumpStart _ f.header s = dumpStart _ (Frame.goaway f).header s from rfl,
    start_eq (.goaway f) (bstr "=== GOAWAY FRAME ===\n") rfl]
  simp only [goawayText, unlines, List.flatMap_cons, List.flatMap_nil, toString_eq,
    List.append_assoc, List.append_nil]
  rfl

/-- C74. The numerals are numerals: their digits, read in the base, give the number. -/
theorem C74_numeral (b n : Nat) (hb : 2 ≤ b) (hb2 : b ≤ 16) :
    ∃ ds : List Nat, numeral b n = ds.map digit ∧ (∀ d ∈ ds, d < b) ∧ ds ≠ [] ∧
      ds.foldl (fun acc d => b * acc + d) 0 = n ∧ (ds.head? = some 0 → n = 0) := by
  by_cases h0 : n = 0
  · subst h0
    exact ⟨[0], rfl, by simp; omega, by simp, by simp, fun _ => rfl⟩
  · refine ⟨(b.digits n).reverse, by unfold numeral; rw [if_neg h0], ?_, ?_, ?_, ?_⟩
    · intro d hd
      exact Nat.digits_lt_base (by omega) (List.mem_reverse.1 hd)
    · simpa using Nat.digits_ne_nil_iff_ne_zero.2 h0
    · have : ∀ l : List Nat, l.reverse.foldl (fun acc d => b * acc + d) 0 = Nat.ofDigits b l := by
        intro l
        induction l with
        | nil => rfl
        | cons d l ih => rw [List.reverse_cons, List.foldl_append, ih, Nat.ofDigits_cons]; simp; omega
      rw [this, Nat.ofDigits_digits]
    · intro h
      rw [List.head?_reverse, List.getLast?_eq_getLast_of_ne_nil (Nat.digits_ne_nil_iff_ne_zero.2 h0)] at h
      exact absurd (Option.some.inj h) (Nat.getLast_digit_ne_zero b h0)

example : decimal 0 = ascii "0" ∧ decimal 65535 = ascii "65535" ∧ numeral 16 65535 = ascii "ffff" := by
  simp [numeral]
  decide +kernel

attribute [local instance] x86 in
example : NoMisprint (.rstStream ⟨⟨4, 3, 0, 0, 7⟩, 8⟩) ∧
    (do let s ← (Frame.ping ⟨⟨9, 6, 1, 0, 0⟩, [0, 1, 2, 3, 4, 5, 6, 255, 16]⟩).dump ⟨[], false⟩
        return s.out) =
      .ok (ascii "=== PING_STREAM FRAME ===\n[Frame Header]\n  length    : 9\n" ++
        ascii "  type      : 6\n  flags     : 1\n  reserved  : 0\n  stream id : 0\n[PAYLOAD]\n" ++
        ascii "00 01 02 03 04 05 06 ff\n10 \n") := by
  exact ⟨by simp [NoMisprint], by decide +kernel⟩

/-! ## C75 -/

theorem error_named (code : UInt32) (k : Nat) (name : Bytes) (hk : errorNames[k]? = some name)
    (hc : code.toNat = k) : errorText code.toNat = name := by
  unfold errorText
  rw [hc, hk]

/-- C75, the part that holds: every error code with an RFC 7540 name but INTERNAL_ERROR is printed
with that name, by RST_STREAM and GOAWAY. Missing: INTERNAL_ERROR, see `C75_error_2_violated`. -/
theorem C75_error_names_partial [Platform] (k : Nat) (name : Bytes) (hk : errorNames[k]? = some name)
    (h2 : k ≠ 2) (code : UInt32) (hc : code.toNat = k) (fh : FrameHeader) (s : Stream) :
    (∃ s', (Frame.rstStream ⟨fh, code⟩).dump s = .ok s' ∧
      ∃ before, s'.out = before ++ ascii "\n  Error Code: " ++ name ++ ascii "\n") ∧
    (∀ (r : UInt8) (last : UInt32) (debug : Bytes), DebugPrintable debug →
      ∃ s', (Frame.goaway ⟨fh, ⟨r, last, code, debug⟩⟩).dump s = .ok s' ∧
      ∃ before after, s'.out = before ++ ascii "\n  Error Code: " ++ name ++ ascii "\n" ++ after) := by
  have hne : code ≠ 2 := by rintro rfl; exact h2 hc.symm
  have ht := error_named code k name hk hc
  constructor
  · obtain ⟨s', h⟩ := errorCode_ok code (dumpStart (bstr "=== RST_STREAM FRAME ===\n") fh s)
    refine ⟨s', h, ?_⟩
    have := C74_text (.rstStream ⟨fh, code⟩) s s' h (by simp) (by simp) hne
    rw [this]
    simp only [payloadText, ht, startText, unlines, List.flatMap_cons, List.flatMap_nil, List.flatMap_append,
      List.append_nil]
    exact ⟨s.out ++ (title (.rstStream ⟨fh, code⟩) ++ [10] ++ (headerLines fh).flatMap (· ++ [10]) ++
      ascii "[PAYLOAD]"), by simp only [List.append_assoc]; rfl⟩
  · intro r last debug hd
    obtain ⟨s', shown, rest, h, -, -, -, h6⟩ := C74_goaway ⟨fh, ⟨r, last, code, debug⟩⟩ s hd hne
    refine ⟨s', h, ?_⟩
    rw [h6]
    simp only [goawayText, ht, unlines, List.flatMap_cons, List.flatMap_nil, List.append_nil]
    exact ⟨s.out ++ startText (.goaway ⟨fh, ⟨r, last, code, debug⟩⟩) ++
      (ascii "  R: " ++ decimal r.toNat ++ [10] ++ (ascii "  Last-Stream-ID: " ++ decimal last.toNat)),
      ascii "  Additional Debug Data: " ++ shown ++ ascii "\n", by simp only [List.append_assoc]; rfl⟩

/-- C75 is false of the code: INTERNAL_ERROR (2) is printed as INTERNAL_ERRPR. -/
theorem C75_error_2_violated [Platform] (fh : FrameHeader) (s : Stream) :
    errorNames[2]? = some (ascii "INTERNAL_ERROR") ∧
    ∃ s' before, (Frame.rstStream ⟨fh, 2⟩).dump s = .ok s' ∧
      s'.out = before ++ ascii "\n  Error Code: INTERNAL_ERRPR\n" := by
  refine ⟨rfl, _, s.out ++ (title (.rstStream ⟨fh, 2⟩) ++ [10] ++
    (headerLines fh).flatMap (· ++ [10]) ++ ascii "[PAYLOAD]"), rfl, ?_⟩
  rw [show ∀ t (s : Stream), (Stream.text t s).out = s.out ++ t from fun _ _ => rfl,
    show dumpStart _ (RstStreamFrame.header ⟨fh, 2⟩) s = dumpStart _ (Frame.rstStream ⟨fh, 2⟩).header s from rfl,
    start_eq (.rstStream ⟨fh, 2⟩) (bstr "=== RST_STREAM FRAME ===\n") rfl]
  simp only [startText, unlines, List.flatMap_cons, List.flatMap_nil, List.flatMap_append,
      List.append_nil, List.append_assoc]
  rfl

/-- C75, the part that holds: every setting with an RFC 7540 name but MAX_CONCURRENT_STREAMS is
printed with that name. Missing: setting 3, see `C75_setting_3_violated`. -/
theorem C75_setting_names_partial [Platform] (k : Nat) (name : Bytes)
    (hk : settingNames[k]? = some name) (h3 : k ≠ 2) (id : UInt16) (hid : id.toNat = k + 1)
    (value : UInt32) (fh : FrameHeader) (s : Stream) :
    ∃ s', (Frame.settings ⟨fh, [(id, value)]⟩).dump s = .ok s' ∧
      ∃ before, s'.out = before ++ ascii "\n  " ++ name ++ ascii ": " ++
        numeral (if s.hex then 16 else 10) value.toNat ++ ascii "\n" := by
  have hne : id ≠ 3 := by rintro rfl; change 3 = k + 1 at hid; omega
  obtain ⟨s', h⟩ := settings_ok [(id, value)] (dumpStart (bstr "=== SETTINGS FRAME ===\n") fh s)
  refine ⟨s', h, ?_⟩
  have := C74_text (.settings ⟨fh, [(id, value)]⟩) s s' h (by simp) (by simp)
    (by simp only [NoMisprint, List.mem_singleton]; rintro p rfl; exact hne)
  rw [this]
  have ht : settingText id.toNat = name := by
    rw [hid]
    unfold settingText
    simp only [hk]
  simp only [payloadText, List.map_cons, List.map_nil, ht, startText, unlines, List.flatMap_cons,
    List.flatMap_nil, List.flatMap_append, List.append_nil]
  exact ⟨s.out ++ (title (.settings ⟨fh, [(id, value)]⟩) ++ [10] ++
    (headerLines fh).flatMap (· ++ [10]) ++ ascii "[PAYLOAD]"), by simp only [List.append_assoc]; rfl⟩

/-- C75 is false of the code: SETTINGS_MAX_CONCURRENT_STREAMS (3) is printed without its last
letter. -/
theorem C75_setting_3_violated [Platform] (value : UInt32) (fh : FrameHeader) (s : Stream) :
    settingNames[2]? = some (ascii "SETTINGS_MAX_CONCURRENT_STREAMS") ∧
    ∃ s' before, (Frame.settings ⟨fh, [(3, value)]⟩).dump s = .ok s' ∧
      s'.out = before ++ ascii "\n  SETTINGS_MAX_CONCURRENT_STREAM: " ++
        numeral (if s.hex then 16 else 10) value.toNat ++ ascii "\n" := by
  refine ⟨rfl, _, s.out ++ (title (.settings ⟨fh, [(3, value)]⟩) ++ [10] ++
    (headerLines fh).flatMap (· ++ [10]) ++ ascii "[PAYLOAD]"), rfl, ?_⟩
  rw [← digits_eq _ _ (by split <;> omega) (by split <;> omega)]
  have := start_eq (.settings ⟨fh, [(3, value)]⟩) (bstr "=== SETTINGS FRAME ===\n") rfl s
  simp only [Stream.text, Stream.number, List.append_assoc] at this ⊢
  rw [show dumpStart _ (SettingsFrame.header ⟨fh, [(3, value)]⟩) s =
    dumpStart _ (Frame.settings ⟨fh, [(3, value)]⟩).header s from rfl, this]
  simp only [startText, unlines, List.flatMap_cons, List.flatMap_nil, List.flatMap_append,
      List.append_nil, List.append_assoc]
  rfl

example : errorNames[13]? = some (ascii "HTTP_1_1_REQUIRED") ∧ (13 : UInt32).toNat = 13 ∧
    settingNames[5]? = some (ascii "SETTINGS_MAX_HEADER_LIST_SIZE") := by decide +kernel

/-! ## C77 -/

/-- The line for table entry `i`. -/
def tableLine (i : Nat) (h : Header) : Bytes :=
  ascii "[" ++ decimal i ++ ascii "] -> " ++ h.1 ++ ascii ": " ++ h.2

theorem tableEntries_eq (i : Nat) (hs : List Header) (s : Stream) :
    (dumpTableEntries i hs s).out =
      s.out ++ unlines (hs.zipIdx.map fun p => tableLine (i + p.2) p.1) := by
  induction hs generalizing i s with
  | nil => simp [dumpTableEntries, unlines]
  | cons h hs ih =>
      unfold dumpTableEntries
      rw [ih]
      simp only [Stream.text, toString_eq, List.zipIdx_cons, List.map_cons, unlines, List.flatMap_cons,
        List.append_assoc, tableLine, Nat.add_zero]
      have : (hs.zipIdx (0 + 1)).map (fun p => ascii "[" ++ (decimal (i + p.2) ++ (ascii "] -> " ++
          (p.1.1 ++ (ascii ": " ++ p.1.2))))) =
          hs.zipIdx.map (fun p => ascii "[" ++ (decimal (i + 1 + p.2) ++ (ascii "] -> " ++
          (p.1.1 ++ (ascii ": " ++ p.1.2))))) := by
        rw [List.zipIdx_succ, List.map_map]
        apply List.map_congr_left
        intro p _
        simp only [Function.comp]
        rw [(by omega : i + (p.2 + 1) = i + 1 + p.2)]
      rw [this]
      rfl

/-- C77. Printing a dynamic table writes a title and one line `[i] -> name: value` per entry, newest
first, numbered from 62 on; the number shown is the HPACK index under which the decoder finds that
entry. -/
theorem C77_listing [Platform] (t : DynamicTable) (s : Stream) :
    ∃ lines, (t.dump s).out = s.out ++ unlines (ascii "=== DYNAMIC_TABLE ===" :: lines) ∧
      lines.length = t.entries.length ∧
      ∀ k line, lines[k]? = some line → ∃ h, t.entries[k]? = some h ∧
        line = ascii "[" ++ decimal (62 + k) ++ ascii "] -> " ++ h.1 ++ ascii ": " ++ h.2 ∧
        ∀ (b : UInt8) (bs rest : Bytes), 128 ≤ b.toNat →
          intDecodeMinimal 7 (b :: bs) = some (62 + k, rest) →
          decodeHeader (b :: bs) t =
            .ok (⟨.indexed, .header h⟩, (b :: bs).length - rest.length) := by
  refine ⟨t.entries.zipIdx.map fun p => tableLine (62 + p.2) p.1, ?_, by simp, ?_⟩
  · unfold DynamicTable.dump
    rw [tableEntries_eq]
    simp only [Stream.text, unlines, List.flatMap_cons, List.append_assoc]
    rfl
  · intro k line hk
    rw [List.getElem?_map, List.getElem?_zipIdx] at hk
    cases he : t.entries[k]? with
    | none => rw [he] at hk; cases hk
    | some h =>
        rw [he] at hk
        simp only [Option.map_some, Nat.zero_add, Option.some.injEq] at hk
        refine ⟨h, rfl, hk.symm, ?_⟩
        intro b bs rest hb hi
        have hg : codeGet t (62 + k) = some h := codeGet_some.2 ⟨by omega,
          makeIndexedHeader_dynamic (by omega) (by rw [Nat.add_sub_cancel_left]; exact he)⟩
        have := (decodeHeader_item (table := t) (rest := rest) (item := .indexed h)
          (.indexed b bs rest (62 + k) h hb (clientInt_of_minimal (by omega) hi) hg) trivial).1
        exact this

attribute [local instance] x86 in
example : (DynamicTable.dump ⟨[(bstr "a", bstr "1"), (bstr "b", bstr "2")], 68, 4096⟩ ⟨[], true⟩).out =
    ascii "=== DYNAMIC_TABLE ===\n[62] -> a: 1\n[63] -> b: 2\n" ∧
    intDecodeMinimal 7 [0xbf] = some (62 + 1, []) ∧
    decodeHeader [0xbf] ⟨[(bstr "a", bstr "1"), (bstr "b", bstr "2")], 68, 4096⟩ =
      .ok (⟨.indexed, .header (bstr "b", bstr "2")⟩, 1) := by decide +kernel

end Mh2c
