/-
What `build_frame` can return, and bounds on decoded header blocks.
-/
import Verif.Proofs.Frames
import Verif.Proofs.HeaderProgress
import Verif.Proofs.HeaderFrames
import Verif.Proofs.HuffmanDecode
import Verif.Spec.Wire

namespace Mh2c

open Rfc

/-- The possible results of `build_frame`. -/
inductive Built [Platform] (fh : FrameHeader) (raw : Bytes) (table : DynamicTable) : Frame → Prop
  | data (h : fh.type = 0) : Built fh raw table (.data (DataFrame.new fh.flags fh.streamId raw))
  | headers (h : fh.type = 1) (f : HeadersFrame) (hf : HeadersFrame.ofRaw fh raw table = .ok f) :
      Built fh raw table (.headers f)
  | rawHeaders (h : fh.type = 1) (e : Exc) (hf : HeadersFrame.ofRaw fh raw table = .throw e) :
      Built fh raw table (.raw ⟨fh, raw⟩)
  | priority (h : fh.type = 2) (f : PriorityFrame) (hf : PriorityFrame.ofRaw fh raw = .ok f) :
      Built fh raw table (.priority f)
  | rstStream (h : fh.type = 3) (f : RstStreamFrame) (hf : RstStreamFrame.ofRaw fh raw = .ok f) :
      Built fh raw table (.rstStream f)
  | settings (h : fh.type = 4) (p : SfPayload) (hp : parseSettings raw [] = .ok p) :
      Built fh raw table (.settings (SettingsFrame.new fh.flags fh.streamId p))
  | pushPromise (h : fh.type = 5) (f : PushPromiseFrame)
      (hf : PushPromiseFrame.ofRaw fh raw table = .ok f) : Built fh raw table (.pushPromise f)
  | ping (h : fh.type = 6) (f : PingFrame) (hf : PingFrame.ofRaw fh raw = .ok f) :
      Built fh raw table (.ping f)
  | goaway (h : fh.type = 7) (f : GoawayFrame) (hf : GoawayFrame.ofRaw fh raw = .ok f) :
      Built fh raw table (.goaway f)
  | windowUpdate (h : fh.type = 8) (f : WindowUpdateFrame)
      (hf : WindowUpdateFrame.ofRaw fh raw = .ok f) : Built fh raw table (.windowUpdate f)
  | continuation (h : fh.type = 9) (f : ContinuationFrame)
      (hf : ContinuationFrame.ofRaw fh raw table = .ok f) : Built fh raw table (.continuation f)

theorem type_cases (t : UInt8) :
    t = 0 ∨ t = 1 ∨ t = 2 ∨ t = 3 ∨ t = 4 ∨ t = 5 ∨ t = 6 ∨ t = 7 ∨ t = 8 ∨ t = 9 ∨ 9 < t.toNat :=
  of_decide_eq_true <| u8_all (p := fun t => t = 0 ∨ t = 1 ∨ t = 2 ∨ t = 3 ∨ t = 4 ∨ t = 5 ∨ t = 6 ∨ t = 7 ∨ t = 8 ∨
    t = 9 ∨ 9 < t.toNat) (by decide +kernel) t

theorem built_of_ok [Platform] {fh : FrameHeader} {raw : Bytes} {table : DynamicTable} {f : Frame}
    (hb : buildFrame fh raw table = .ok f) : Built fh raw table f := by
  rcases type_cases fh.type with h | h | h | h | h | h | h | h | h | h | h
  · rw [buildFrame_data _ _ _ h] at hb
    obtain rfl := (Res.ok.inj hb).symm
    exact .data h
  · rw [buildFrame_headers _ _ _ h, buildHeadersFrame] at hb
    cases hr : HeadersFrame.ofRaw fh raw table with
    | ok g => rw [hr] at hb; obtain rfl := (Res.ok.inj hb).symm; exact .headers h g hr
    | throw e => rw [hr] at hb; obtain rfl := (Res.ok.inj hb).symm; exact .rawHeaders h e hr
    | ub k => rw [hr] at hb; cases hb
    | diverge => rw [hr] at hb; cases hb
  · rw [buildFrame_priority _ _ _ h] at hb
    obtain ⟨g, h1, h2⟩ := Res.bind_eq_ok.1 hb
    obtain rfl := (Res.ok.inj h2).symm
    exact .priority h g h1
  · rw [buildFrame_rstStream _ _ _ h] at hb
    obtain ⟨g, h1, h2⟩ := Res.bind_eq_ok.1 hb
    obtain rfl := (Res.ok.inj h2).symm
    exact .rstStream h g h1
  · rw [buildFrame_settings _ _ _ h] at hb
    obtain ⟨g, h1, h2⟩ := Res.bind_eq_ok.1 hb
    obtain rfl := (Res.ok.inj h2).symm
    exact .settings h g h1
  · rw [buildFrame_pushPromise _ _ _ h] at hb
    obtain ⟨g, h1, h2⟩ := Res.bind_eq_ok.1 hb
    obtain rfl := (Res.ok.inj h2).symm
    exact .pushPromise h g h1
  · rw [buildFrame_ping _ _ _ h] at hb
    obtain ⟨g, h1, h2⟩ := Res.bind_eq_ok.1 hb
    obtain rfl := (Res.ok.inj h2).symm
    exact .ping h g h1
  · rw [buildFrame_goaway _ _ _ h] at hb
    obtain ⟨g, h1, h2⟩ := Res.bind_eq_ok.1 hb
    obtain rfl := (Res.ok.inj h2).symm
    exact .goaway h g h1
  · rw [buildFrame_windowUpdate _ _ _ h] at hb
    obtain ⟨g, h1, h2⟩ := Res.bind_eq_ok.1 hb
    obtain rfl := (Res.ok.inj h2).symm
    exact .windowUpdate h g h1
  · rw [buildFrame_continuation _ _ _ h] at hb
    obtain ⟨g, h1, h2⟩ := Res.bind_eq_ok.1 hb
    obtain rfl := (Res.ok.inj h2).symm
    exact .continuation h g h1
  · rw [buildFrame_unknown _ _ _ h] at hb
    cases hb

/-! ### Decoded entries -/

/-- Bounds on an entry decoded from at most `n` octets. -/
structure DecodedEntry (n : Nat) (table : DynamicTable) (e : HeaderEntry) : Prop where
  typed : WellTyped e
  size : ∀ m, e.entry = .maxSize m → m < 2 ^ 31 + 31
  header : ∀ h, e.entry = .header h →
    h.1.length + h.2.length ≤ tableSize table.entries + 128 + 16 * n

theorem syms_length {l rest : List Bool} {syms : List Nat} (h : HuffParse l syms rest) :
    syms.length ≤ l.length := by
  obtain ⟨rfl, -, h3, -⟩ := h
  rw [List.length_append]
  have : syms.length ≤ (syms.flatMap huffCode).length := by
    clear * - h3
    induction syms with
    | nil => simp
    | cons s ss ih =>
        have hs : s < 257 := h3 s (by simp)
        have hpos : 1 ≤ (huffCode s).length := by
          have hall : (List.range 257).all (fun s => decide (1 ≤ (huffCode s).length)) = true := by
            decide +kernel
          exact of_decide_eq_true (List.all_eq_true.1 hall s (List.mem_range.2 hs))
        have := ih (fun t ht => h3 t (by simp [ht]))
        simp only [List.flatMap_cons, List.length_append, List.length_cons]
        omega
  omega

theorem decode_length {v out : Bytes} (h : Huffman.decode v = .ok out) :
    out.length ≤ 8 * v.length := by
  obtain ⟨syms, rest, h1, rfl⟩ := decode_eq_ok.1 h
  rw [List.length_map, ← bytesBits_length]
  exact syms_length h1

theorem addressRange_length [Platform] {v w : Bytes} {i n : Nat} (h : addressRange v i n = .ok w) :
    w.length ≤ v.length := by
  unfold addressRange at h
  split at h
  · split at h
    · cases h
    · obtain rfl := Res.ok.inj h
      simp only [List.length_take, List.length_drop]; omega
  · cases h

theorem copyRange_length {v w : Bytes} {i n : Nat} (h : copyRange v i n = .ok w) :
    w.length ≤ v.length := by
  unfold copyRange at h
  split at h
  · obtain rfl := Res.ok.inj h
    simp only [List.length_take, List.length_drop]; omega
  · cases h

theorem decodeHeaderString_length [Platform] {v s : Bytes} {len : Nat}
    (h : decodeHeaderString v = .ok (s, len)) : s.length ≤ 8 * v.length := by
  unfold decodeHeaderString at h
  obtain ⟨⟨length, intLength⟩, h1, h2⟩ := Res.bind_eq_ok.1 h
  obtain ⟨first, -, h3⟩ := Res.bind_eq_ok.1 h2
  simp only at h3
  split at h3
  · obtain ⟨d, a1, h4⟩ := Res.bind_eq_ok.1 h3
    obtain ⟨d', a2, h5⟩ := Res.bind_eq_ok.1 h4
    obtain ⟨str, a3, h6⟩ := Res.bind_eq_ok.1 h5
    injection h6 with h6
    injection h6 with h7 _
    subst h7
    have := copyRange_length a1
    have := decode_length a2
    have := addressRange_length a3
    omega
  · obtain ⟨str, a3, h6⟩ := Res.bind_eq_ok.1 h3
    injection h6 with h6
    injection h6 with h7 _
    subst h7
    have := addressRange_length a3
    omega

theorem entry_le_tableSize {es : List Header} {h : Header} (hh : h ∈ es) :
    h.1.length + h.2.length + 32 ≤ tableSize es := by
  induction es with
  | nil => cases hh
  | cons e es ih =>
      have hc : tableSize (e :: es) = entrySize e + tableSize es := by simp [tableSize]
      rw [hc]
      rcases List.mem_cons.1 hh with rfl | hh
      · unfold entrySize; omega
      · have := ih hh
        omega

theorem static_short {i : Nat} {h : Header} (hs : staticTableEntries.lookup i = some h) :
    h.1.length + h.2.length ≤ 128 := by
  have hall : staticTableEntries.all (fun e => decide (e.2.1.length + e.2.2.length ≤ 128)) = true := by
    decide +kernel
  exact of_decide_eq_true (List.all_eq_true.1 hall _ (lookup_mem hs))

theorem makeIndexedHeader_length {i : Nat} {table : DynamicTable} {h : Header}
    (hi : makeIndexedHeader i table = .ok h) :
    h.1.length + h.2.length ≤ tableSize table.entries + 128 := by
  unfold makeIndexedHeader at hi
  split at hi
  · unfold DynamicTable.atPos at hi
    split at hi
    · rename_i h' he
      obtain rfl := Res.ok.inj hi
      have := entry_le_tableSize (List.mem_of_getElem? he)
      omega
    · cases hi
  · unfold staticTableAt at hi
    split at hi
    · rename_i h' he
      obtain rfl := Res.ok.inj hi
      have := static_short he
      omega
    · cases hi

theorem decodeLiteral_entry [Platform] {v : Bytes} {p : HeaderPrefix} {ih : Header} {n len : Nat}
    {e : HeaderEntry} (h : decodeLiteral v p ih n = .ok (e, len)) :
    ∃ x, e = ⟨p, .header x⟩ ∧ x.1.length + x.2.length ≤ ih.1.length + 16 * v.length := by
  unfold decodeLiteral at h
  obtain ⟨d, h1, h2⟩ := Res.bind_eq_ok.1 h
  obtain ⟨a1, rfl⟩ := eraseFirst_ok h1
  split at h2
  · obtain ⟨⟨name, nl⟩, b1, h3⟩ := Res.bind_eq_ok.1 h2
    obtain ⟨d', h4, h5⟩ := Res.bind_eq_ok.1 h3
    obtain ⟨a2, rfl⟩ := eraseFirst_ok h4
    obtain ⟨⟨value, vl⟩, b2, h6⟩ := Res.bind_eq_ok.1 h5
    obtain ⟨d'', h7, h8⟩ := Res.bind_eq_ok.1 h6
    injection h8 with h8
    injection h8 with h8 _
    have l1 := decodeHeaderString_length b1
    have l2 := decodeHeaderString_length b2
    simp only [List.length_drop] at l1 l2
    exact ⟨(name, value), h8.symm, by show name.length + value.length ≤ _; omega⟩
  · obtain ⟨⟨value, vl⟩, b1, h6⟩ := Res.bind_eq_ok.1 h2
    obtain ⟨d'', h7, h8⟩ := Res.bind_eq_ok.1 h6
    injection h8 with h8
    injection h8 with h8 _
    have l1 := decodeHeaderString_length b1
    simp only [List.length_drop] at l1
    exact ⟨(ih.1, value), h8.symm, by show ih.1.length + value.length ≤ _; omega⟩

theorem decodeHeader_entry [Platform] {v : Bytes} {table : DynamicTable} {e : HeaderEntry} {n : Nat}
    (h : decodeHeader v table = .ok (e, n)) : DecodedEntry v.length table e := by
  unfold decodeHeader at h
  obtain ⟨first, -, h⟩ := Res.bind_eq_ok.1 h
  rw [checkPrefix_eq, Res.ok_bind] at h
  by_cases hp : prefixClass first.toNat = .sizeUpdate
  · rw [if_pos hp] at h
    obtain ⟨⟨ms, len⟩, h1, h2⟩ := Res.bind_eq_ok.1 h
    injection h2 with h2
    injection h2 with h2 _
    unfold decodeMaxSize decodeIntWithLength at h1
    obtain ⟨y, h3, h4⟩ := Res.bind_eq_ok.1 h1
    injection h4 with h4
    injection h4 with h4 _
    obtain ⟨rest, -, -, hy⟩ := (decodeIntegerValue_spec 5 (by omega) v y).1 h3
    subst h2 h4
    refine ⟨Or.inl ⟨hp, y, rfl⟩, ?_, ?_⟩
    · intro m hm
      injection hm with hm
      omega
    · intro x hx; cases hx
  · rw [if_neg hp] at h
    obtain ⟨⟨index, il⟩, h1, h2⟩ := Res.bind_eq_ok.1 h
    simp only at h2
    have key : ∀ ih : Header, ih.1.length + ih.2.length ≤ tableSize table.entries + 128 →
        (if prefixClass first.toNat = .indexed then
        pure (HeaderEntry.ofHeader (prefixClass first.toNat) ih, il)
        else decodeLiteral v (prefixClass first.toNat) ih il) = Res.ok (e, n) →
        DecodedEntry v.length table e := by
      intro ih hl hk
      split at hk
      · injection hk with hk
        injection hk with h3 _
        subst h3
        refine ⟨Or.inr ⟨hp, ih, rfl⟩, ?_, ?_⟩
        · intro m hm; cases hm
        · intro x hx
          injection hx with hx
          subst hx
          omega
      · obtain ⟨x, rfl, hx⟩ := decodeLiteral_entry hk
        refine ⟨Or.inr ⟨hp, x, rfl⟩, ?_, ?_⟩
        · intro m hm; cases hm
        · intro y hy
          injection hy with hy
          subst hy
          omega
    split at h2
    · obtain ⟨ih, hi, h3⟩ := Res.bind_eq_ok.1 h2
      exact key ih (makeIndexedHeader_length hi) h3
    · exact key _ (by simp) h2

theorem DecodedEntry.mono {n m : Nat} (hnm : n ≤ m) {table : DynamicTable} {e : HeaderEntry}
    (h : DecodedEntry n table e) : DecodedEntry m table e :=
  ⟨h.typed, h.size, fun x hx => le_trans (h.header x hx) (by omega)⟩

theorem decodeHeaderBlock_entries [Platform] {v : Bytes} {table : DynamicTable} {es : HeaderBlock}
    (h : decodeHeaderBlock v table = .ok es) : ∀ e ∈ es, DecodedEntry v.length table e := by
  induction hn : v.length using Nat.strong_induction_on generalizing v es with
  | _ k ih =>
    by_cases hv : v = []
    · subst hv
      rw [decodeHeaderBlock_nil] at h
      obtain rfl := Res.ok.inj h
      simp
    · rw [decodeHeaderBlock_eq hv] at h
      obtain ⟨⟨e, n⟩, h1, h2⟩ := Res.bind_eq_ok.1 h
      obtain ⟨es', h3, h4⟩ := Res.bind_eq_ok.1 h2
      obtain rfl := Res.ok.inj h4
      have hb := decodeHeader_bounds h1
      intro x hx
      rcases List.mem_cons.1 hx with rfl | hx
      · rw [← hn]; exact decodeHeader_entry h1
      · have := @ih (v.drop n).length (by simp; omega) (v.drop n) es' h3 rfl x hx
        exact this.mono (by simp; omega)

theorem extractPadding_length {flags : UInt8} {raw padding rest : Bytes}
    (h : extractPadding flags raw = .ok (padding, rest)) : rest.length ≤ raw.length := by
  unfold extractPadding at h
  split at h
  · obtain ⟨p, -, h2⟩ := Res.bind_eq_ok.1 h
    split at h2
    · cases h2
    · obtain ⟨r, h3, h4⟩ := Res.bind_eq_ok.1 h2
      obtain ⟨-, rfl⟩ := eraseFirst_ok h3
      injection h4 with h4
      injection h4 with _ h5
      subst h5
      simp only [List.length_drop, List.length_take]; omega
  · injection h with h
    injection h with _ h5
    subst h5
    exact le_refl _

theorem extractPriority_length {flags : UInt8} {raw rest : Bytes} {p : PriorityOption}
    (h : extractPriority flags raw = .ok (p, rest)) : rest.length ≤ raw.length := by
  unfold extractPriority at h
  split at h
  · obtain ⟨dep, -, h⟩ := Res.bind_eq_ok.1 h
    obtain ⟨first, -, h⟩ := Res.bind_eq_ok.1 h
    obtain ⟨value, -, h⟩ := Res.bind_eq_ok.1 h
    obtain ⟨r, h3, h⟩ := Res.bind_eq_ok.1 h
    obtain ⟨-, rfl⟩ := eraseFirst_ok h3
    obtain ⟨w, -, h⟩ := Res.bind_eq_ok.1 h
    obtain ⟨r, h3, h⟩ := Res.bind_eq_ok.1 h
    obtain ⟨-, rfl⟩ := eraseFirst_ok h3
    injection h with h
    injection h with _ h5
    subst h5
    simp only [List.length_drop]; omega
  · injection h with h
    injection h with _ h5
    subst h5
    exact le_refl _

theorem headers_entries [Platform] {fh : FrameHeader} {raw : Bytes} {table : DynamicTable}
    {f : HeadersFrame} (h : HeadersFrame.ofRaw fh raw table = .ok f) :
    f.header = fh ∧ ∀ e ∈ f.headerBlock, DecodedEntry raw.length table e := by
  unfold HeadersFrame.ofRaw at h
  obtain ⟨⟨pad, rest⟩, h1, h⟩ := Res.bind_eq_ok.1 h
  obtain ⟨⟨pri, rest'⟩, h2, h⟩ := Res.bind_eq_ok.1 h
  obtain ⟨block, h3, h⟩ := Res.bind_eq_ok.1 h
  obtain rfl := Res.ok.inj h
  have := extractPadding_length h1
  have := extractPriority_length h2
  exact ⟨rfl, fun e he => (decodeHeaderBlock_entries h3 e he).mono (by omega)⟩

theorem pushPromise_entries [Platform] {fh : FrameHeader} {raw : Bytes} {table : DynamicTable}
    {f : PushPromiseFrame} (h : PushPromiseFrame.ofRaw fh raw table = .ok f) :
    f.header = fh ∧ ∀ e ∈ f.payload.headerBlock, DecodedEntry raw.length table e := by
  unfold PushPromiseFrame.ofRaw at h
  obtain ⟨⟨pad, rest⟩, h1, h⟩ := Res.bind_eq_ok.1 h
  obtain ⟨first, -, h⟩ := Res.bind_eq_ok.1 h
  obtain ⟨value, -, h⟩ := Res.bind_eq_ok.1 h
  obtain ⟨r, h2, h⟩ := Res.bind_eq_ok.1 h
  obtain ⟨-, rfl⟩ := eraseFirst_ok h2
  obtain ⟨block, h3, h⟩ := Res.bind_eq_ok.1 h
  obtain rfl := Res.ok.inj h
  have := extractPadding_length h1
  exact ⟨rfl, fun e he => (decodeHeaderBlock_entries h3 e he).mono (by
    simp only at *; simp only [List.length_drop]; omega)⟩

theorem continuation_entries [Platform] {fh : FrameHeader} {raw : Bytes} {table : DynamicTable}
    {f : ContinuationFrame} (h : ContinuationFrame.ofRaw fh raw table = .ok f) :
    f.header = fh ∧ ∀ e ∈ f.headerBlock, DecodedEntry raw.length table e := by
  unfold ContinuationFrame.ofRaw at h
  obtain ⟨block, h3, h⟩ := Res.bind_eq_ok.1 h
  obtain rfl := Res.ok.inj h
  exact ⟨rfl, fun e he => decodeHeaderBlock_entries h3 e he⟩

/-- The type octet of a built frame is the announced one. -/
theorem Built.type [Platform] {fh : FrameHeader} {raw : Bytes} {table : DynamicTable} {f : Frame}
    (h : Built fh raw table f) : f.header.type = fh.type := by
  cases h with
  | data h => rw [h]; rfl
  | headers h f hf => exact congrArg FrameHeader.type (headers_entries hf).1
  | rawHeaders h e hf => rfl
  | priority h f hf =>
      unfold PriorityFrame.ofRaw at hf
      obtain ⟨p, -, hf⟩ := Res.bind_eq_ok.1 hf
      obtain ⟨_, -, hf⟩ := Res.bind_eq_ok.1 hf
      obtain rfl := Res.ok.inj hf
      rfl
  | rstStream h f hf =>
      unfold RstStreamFrame.ofRaw at hf
      split at hf
      · cases hf
      · obtain ⟨p, -, hf⟩ := Res.bind_eq_ok.1 hf
        obtain rfl := Res.ok.inj hf
        rfl
  | settings h p hp => rw [h]; rfl
  | pushPromise h f hf => exact congrArg FrameHeader.type (pushPromise_entries hf).1
  | ping h f hf => obtain rfl := Res.ok.inj hf; rfl
  | goaway h f hf =>
      unfold GoawayFrame.ofRaw at hf
      split at hf
      · cases hf
      · obtain ⟨p, -, hf⟩ := Res.bind_eq_ok.1 hf
        obtain ⟨_, -, hf⟩ := Res.bind_eq_ok.1 hf
        obtain rfl := Res.ok.inj hf
        rfl
  | windowUpdate h f hf =>
      unfold WindowUpdateFrame.ofRaw at hf
      obtain ⟨p, -, hf⟩ := Res.bind_eq_ok.1 hf
      obtain ⟨_, -, hf⟩ := Res.bind_eq_ok.1 hf
      obtain ⟨_, -, hf⟩ := Res.bind_eq_ok.1 hf
      obtain rfl := Res.ok.inj hf
      rfl
  | continuation h f hf => exact congrArg FrameHeader.type (continuation_entries hf).1

end Mh2c
