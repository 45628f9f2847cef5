import Verif.Spec.Relay
import Verif.Props.Bits
import Verif.Props.Frames
import Verif.Props.HeaderFrames
import Verif.Props.Client
import Verif.Props.Transport
import Verif.Proofs.Received

/-! C96: passing received frames on. -/

namespace Mh2c
open Rfc

theorem be_word (w : Bytes) (h : w.length = 4) :
    be 4 ((beValue w / 2 ^ 31) * 2 ^ 31 + beValue w % 2 ^ 31) = w := by
  have : beValue w / 2 ^ 31 * 2 ^ 31 + beValue w % 2 ^ 31 = beValue w := by omega
  rw [this, ← h, be_beValue]

/-- A frame read from its octets is written as the same octets. -/
theorem reserialize [Platform] {octets : Bytes} {table : DynamicTable} {f : Frame}
    (hl : octets.length = frameLength octets) (hr : reparse octets table = .ok f)
    (hp : Plain octets) : f.serialize = .ok octets := by
  have h9 : 9 ≤ octets.length := by rw [hl]; unfold frameLength; omega
  obtain ⟨fh, h1, h2⟩ := Res.bind_eq_ok.1 hr
  obtain ⟨fh', e1, -, hres, hsid, hser⟩ := (C05_parse_lossless (octets.take 9)).1 (by simp; omega)
  rw [h1] at e1
  obtain rfl := Res.ok.inj e1
  have ht9 : (octets.take 9).take 9 = octets.take 9 := by rw [List.take_take]; simp
  rw [ht9] at hser
  have hall : fh.serialize ++ octets.drop 9 = octets := by rw [hser, List.take_append_drop]
  rw [buildFrameHeader_eq _ (by simp; omega)] at h1
  have hfh := Res.ok.inj h1
  have hlen : fh.length = castToFhLength (octets.drop 9).length := by
    rw [← hfh, castToFhLength]
    show UInt32.ofNat _ = _
    congr 1
    rw [List.take_take, List.length_drop, hl]
    unfold frameLength announced
    simp
  have htype : octets[3]? = some fh.type := by
    rw [← hfh]
    show _ = some _
    rw [List.getElem?_eq_getElem (by omega), List.getElem_take]
  have hzero : (∀ b, octets[5]? = some b → b.toNat < 128) → fh.reserved = 0 := by
    intro hb
    have h5 := hb _ (List.getElem?_eq_getElem (by omega : 5 < octets.length))
    have hv : beValue (((octets.take 9).drop 5).take 4) / 2 ^ 31 = 0 := by
      rw [← first_bit (by simp; omega), highBits_eq]
      simp only [List.getElem_drop, List.getElem_take, Nat.add_zero]
      omega
    rw [← hfh]
    show UInt8.ofNat _ = _
    rw [hv]; rfl
  have hmk : ∀ t : UInt8, fh.type = t → fh.reserved = 0 →
      (⟨castToFhLength (octets.drop 9).length, t, fh.flags, 0, fh.streamId⟩ : FrameHeader) = fh := by
    rintro t rfl h0
    rw [← hlen, ← h0]
  cases built_of_ok h2 with
  | data h =>
      have h0 := hzero (hp.reserved (.inl (by rw [htype, h])))
      show Res.ok (FrameHeader.serialize (⟨castToFhLength (octets.drop 9).length, 0, fh.flags, 0, fh.streamId⟩) ++ _) = _
      rw [hmk 0 h h0]
      exact congrArg Res.ok hall
  | headers h g hf =>
      unfold HeadersFrame.ofRaw at hf
      obtain ⟨x, -, hf⟩ := Res.bind_eq_ok.1 hf
      obtain ⟨y, -, hf⟩ := Res.bind_eq_ok.1 hf
      obtain ⟨z, -, hf⟩ := Res.bind_eq_ok.1 hf
      rw [← Res.ok.inj hf]
      exact congrArg Res.ok hall
  | rawHeaders h e hf => exact congrArg Res.ok hall
  | priority h g hf =>
      have h5 := hp.priority (by rw [htype, h])
      have hd : (octets.drop 9).length = 5 := by simp; omega
      rw [priority_ofRaw _ (by omega)] at hf
      rw [← Res.ok.inj hf]
      refine congrArg Res.ok (Eq.trans ?_ hall)
      have hv : beValue ((octets.drop 9).take 4) < 2 ^ 32 := take_beValue_lt 4
      show fh.serialize ++ netBytes 4 _ ++ _ = _
      rw [List.append_assoc]
      congr 1
      simp only [netBytes_eq, lowBits_eq, UInt8.toNat_ofNat', UInt32.toNat_ofNat']
      rw [Nat.mod_eq_of_lt (a := beValue _ % 2 ^ 31) (by omega),
        Nat.mod_eq_of_lt (a := beValue _ / 2 ^ 31) (by omega),
        Nat.mod_eq_of_lt (a := beValue _ / 2 ^ 31) (by omega),
        or_high_bit _ _ (by omega), be_word _ (by simp; omega)]
      conv_rhs => rw [← List.take_append_drop 4 (octets.drop 9)]
      congr 1
      have hlast : ∀ (l : Bytes) (hl : l.length = 5), [l[4]] = l.drop 4 := by
        intro l hl
        match l, hl with
        | [_, _, _, _, _], _ => rfl
      exact hlast _ hd
  | rstStream h g hf =>
      have h5 := hp.rstStream (by rw [htype, h])
      have hd : (octets.drop 9).length = 4 := by simp; omega
      rw [rstStream_ofRaw _ (by omega)] at hf
      rw [← Res.ok.inj hf]
      refine congrArg Res.ok (Eq.trans ?_ hall)
      have hv : beValue ((octets.drop 9).take 4) < 2 ^ 32 := take_beValue_lt 4
      show fh.serialize ++ netBytes 4 _ = _
      congr 1
      simp only [netBytes_eq, UInt32.toNat_ofNat']
      rw [Nat.mod_eq_of_lt (by omega), List.take_of_length_le (by omega), ← hd, be_beValue]
  | settings h p hps =>
      have h0 := hzero (hp.reserved (.inr (by rw [htype, h])))
      obtain ⟨ps, e1, e2⟩ := hp.settings (by rw [htype, h])
      rw [e1, parseSettings_ok] at hps
      have hfold : ps.foldl (fun m p => SfPayload.insert p.1 p.2 m) [] = ps :=
        isMap_ext (foldl_isMap ps List.Pairwise.nil) e2
          (fun k => by rw [foldl_lookup ps List.Pairwise.nil]; simp)
      rw [hfold] at hps
      obtain rfl := Res.ok.inj hps
      refine congrArg Res.ok (Eq.trans ?_ hall)
      show FrameHeader.serialize (⟨castToFhLength (6 * ps.length), 4, fh.flags, 0, fh.streamId⟩) ++
        ps.flatMap serializeSetting = _
      have hm := hmk 4 h h0
      rw [e1, settingsOctets_length] at hm
      rw [hm, e1]
      congr 1
      unfold settingsOctets serializeSetting settingOctets
      simp only [netBytes_eq]
  | pushPromise h g hf =>
      unfold PushPromiseFrame.ofRaw at hf
      obtain ⟨x, -, hf⟩ := Res.bind_eq_ok.1 hf
      obtain ⟨y, -, hf⟩ := Res.bind_eq_ok.1 hf
      obtain ⟨z, -, hf⟩ := Res.bind_eq_ok.1 hf
      obtain ⟨z, -, hf⟩ := Res.bind_eq_ok.1 hf
      obtain ⟨z, -, hf⟩ := Res.bind_eq_ok.1 hf
      rw [← Res.ok.inj hf]
      exact congrArg Res.ok hall
  | ping h g hf =>
      rw [← Res.ok.inj hf]
      exact congrArg Res.ok hall
  | goaway h g hf =>
      have h8 : 8 ≤ (octets.drop 9).length := by
        by_contra hc
        unfold GoawayFrame.ofRaw at hf
        rw [if_pos (by omega)] at hf
        cases hf
      rw [goaway_ofRaw _ h8] at hf
      rw [← Res.ok.inj hf]
      have hv : beValue ((octets.drop 9).take 4) < 2 ^ 32 := take_beValue_lt 4
      have hw : beValue (((octets.drop 9).drop 4).take 4) < 2 ^ 32 := take_beValue_lt 4
      show GoawayFrame.serialize _ = _
      unfold GoawayFrame.serialize shlInt
      simp only [UInt8.toNat_ofNat', UInt32.toNat_ofNat', netBytes_eq, lowBits_eq]
      rw [Nat.mod_eq_of_lt (a := beValue _ / 2 ^ 31) (by omega), if_pos (by omega), Res.ok_bind,
        Nat.mod_eq_of_lt (a := beValue _ % 2 ^ 31) (by omega),
        Nat.mod_eq_of_lt (a := beValue _ % 2 ^ 31) (by omega),
        Nat.mod_eq_of_lt (a := beValue (List.take 4 (List.drop 4 _))) (by omega)]
      refine congrArg Res.ok (Eq.trans ?_ hall)
      have hor : ∀ a b : Nat, b < 2 ^ 31 → b ||| a * 2 ^ 31 = a * 2 ^ 31 + b := by
        intro a b hb
        rw [Nat.or_comm, ← or_high_bit _ _ hb, Nat.shiftLeft_eq]
      rw [hor _ _ (by omega), be_word _ (by simp at h8 ⊢; omega), List.append_assoc, List.append_assoc]
      congr 1
      have hif : ∀ l : Bytes, (if l.length > 0 then l else []) = l := by
        intro l; cases l <;> simp
      have hw4 : (((octets.drop 9).drop 4).take 4).length = 4 := by simp at h8 ⊢; omega
      have hbe := be_beValue (((octets.drop 9).drop 4).take 4)
      rw [hw4] at hbe
      rw [hif, hbe]
      conv_rhs => rw [← List.take_append_drop 4 (octets.drop 9),
        ← List.take_append_drop 4 ((octets.drop 9).drop 4)]
      simp only [List.drop_drop]
  | windowUpdate h g hf =>
      have h4 : (octets.drop 9).length = 4 := by
        by_contra hc
        unfold WindowUpdateFrame.ofRaw at hf
        obtain ⟨x, -, hf⟩ := Res.bind_eq_ok.1 hf
        obtain ⟨y, hy, -⟩ := Res.bind_eq_ok.1 hf
        unfold constructWindowSize at hy
        rw [if_pos hc] at hy
        cases hy
      rw [windowUpdate_ofRaw _ h4] at hf
      rw [← Res.ok.inj hf]
      have hv : beValue (octets.drop 9) < 2 ^ 32 := by
        have := beValue_lt (octets.drop 9)
        rw [h4] at this
        exact this
      refine congrArg Res.ok (Eq.trans ?_ hall)
      show fh.serialize ++ netBytes 4 _ = _
      congr 1
      simp only [netBytes_eq, lowBits_eq, UInt8.toNat_ofNat', UInt32.toNat_ofNat']
      rw [Nat.mod_eq_of_lt (a := beValue _ % 2 ^ 31) (by omega),
        Nat.mod_eq_of_lt (a := beValue _ % 2 ^ 31) (by omega),
        Nat.mod_eq_of_lt (a := beValue _ / 2 ^ 31) (by omega),
        Nat.mod_eq_of_lt (a := beValue _ / 2 ^ 31) (by omega),
        or_high_bit _ _ (by omega), be_word _ h4]
  | continuation h g hf =>
      unfold ContinuationFrame.ofRaw at hf
      obtain ⟨x, -, hf⟩ := Res.bind_eq_ok.1 hf
      rw [← Res.ok.inj hf]
      exact congrArg Res.ok hall

/-- Frames of the other types are always plain. -/
theorem plain_other {octets : Bytes} {t : UInt8} (h : octets[3]? = some t)
    (ht : t ≠ 0 ∧ t ≠ 2 ∧ t ≠ 3 ∧ t ≠ 4) : Plain octets := by
  obtain ⟨h0, h2, h3, h4⟩ := ht
  refine ⟨fun hh => ?_, fun hh => ?_, fun hh => ?_, fun hh => ?_⟩
  · rcases hh with hh | hh <;> rw [h] at hh <;> cases hh <;> contradiction
  · rw [h] at hh; cases hh; contradiction
  · rw [h] at hh; cases hh; contradiction
  · rw [h] at hh; cases hh; contradiction

/-- A frame read from its octets is written in at most as many octets, and in the same octets exactly
if they were plain. -/
theorem reserialize_exact [Platform] {octets : Bytes} {table : DynamicTable} {f : Frame}
    (hl : octets.length = frameLength octets) (hr : reparse octets table = .ok f) :
    ∃ w, f.serialize = .ok w ∧ w.length ≤ octets.length ∧ (w = octets ↔ Plain octets) := by
  by_cases hp : Plain octets
  · exact ⟨octets, reserialize hl hr hp, Nat.le_refl _, by simp [hp]⟩
  have h9 : 9 ≤ octets.length := by rw [hl]; unfold frameLength; omega
  have hr' := hr
  obtain ⟨fh, h1, h2⟩ := Res.bind_eq_ok.1 hr'
  obtain ⟨fh', e1, -, -, hsid, -⟩ := (C05_parse_lossless (octets.take 9)).1 (by simp; omega)
  rw [h1] at e1
  obtain rfl := Res.ok.inj e1
  have h1' := h1
  rw [buildFrameHeader_eq _ (by simp; omega)] at h1
  have hfh := Res.ok.inj h1
  have htype : octets[3]? = some fh.type := by
    rw [← hfh]
    show _ = some _
    rw [List.getElem?_eq_getElem (by omega), List.getElem_take]
  have hsmall : fh.reserved = 0 → ∀ b, octets[5]? = some b → b.toNat < 128 := by
    intro h0 b hb
    have hb5 : octets[5]? = some (octets[5]'(by
        rw [hl] at h9 ⊢; have := hl; unfold frameLength at this ⊢; omega)) :=
      List.getElem?_eq_getElem _
    rw [hb] at hb5
    obtain rfl := Option.some.inj hb5
    have hv : beValue (((octets.take 9).drop 5).take 4) < 2 ^ 32 := take_beValue_lt 4
    rw [← hfh] at h0
    have h0' := congrArg UInt8.toNat h0
    simp only [UInt8.toNat_ofNat'] at h0'
    have h0'' : beValue (((octets.take 9).drop 5).take 4) / 2 ^ 31 = 0 := by
      have : (0 : UInt8).toNat = 0 := rfl
      omega
    rw [← first_bit (by simp; omega), highBits_eq] at h0''
    simp only [List.getElem_drop, List.getElem_take, Nat.add_zero] at h0''
    omega
  -- If a header with a clear reserved bit begins the octets, theirs is clear.
  have hclear : ∀ (t : UInt8) (w : Bytes), (octets.drop 9).length < 2 ^ 24 →
      FrameHeader.serialize ⟨castToFhLength w.length, t, fh.flags, 0, fh.streamId⟩ ++ w = octets →
      fh.reserved = 0 := by
    intro t w hw he
    have hwl : w = octets.drop 9 := by
      rw [← he, List.drop_left' (FrameHeader.serialize_length _)]
    have h4 := (C04_frame_header_round_trip
      ⟨castToFhLength w.length, t, fh.flags, 0, fh.streamId⟩
      (by rw [hwl]; simp only [castToFhLength, UInt32.toNat_ofNat']; omega)
      (show (0 : UInt8).toNat ≤ 1 by decide) hsid []).2.2
    have h5 : octets.take 9 =
        FrameHeader.serialize ⟨castToFhLength w.length, t, fh.flags, 0, fh.streamId⟩ ++ [] := by
      rw [List.append_nil, ← he, List.take_left' (FrameHeader.serialize_length _)]
    rw [← h5, h1'] at h4
    exact congrArg FrameHeader.reserved (Res.ok.inj h4)
  have hshort : (octets.drop 9).length < 2 ^ 24 := by
    rw [List.length_drop, hl]
    unfold frameLength announced
    have := beValue_lt ((octets.take 3))
    have h3 : (octets.take 3).length = 3 := by simp; omega
    rw [h3] at this
    simpa using this
  have hne : ∀ t, fh.type ≠ t → octets[3]? ≠ some t :=
    fun t ht hh => ht (Option.some.inj (htype.symm.trans hh))
  have hno : ∀ w, (w = octets → Plain octets) → (w = octets ↔ Plain octets) :=
    fun w h => ⟨h, fun h => absurd h hp⟩
  cases built_of_ok h2 with
  | data h =>
      refine ⟨_, rfl, ?_, hno _ fun he => ?_⟩
      · show (FrameHeader.serialize _ ++ octets.drop 9).length ≤ _
        rw [List.length_append, FrameHeader.serialize_length, List.length_drop]; omega
      · have h0 := hsmall (hclear 0 (octets.drop 9) hshort he)
        exact ⟨fun _ => h0, fun hh => absurd hh (hne _ (by rw [h]; decide)),
          fun hh => absurd hh (hne _ (by rw [h]; decide)), fun hh => absurd hh (hne _ (by rw [h]; decide))⟩
  | priority h g hf =>
      have h5 : 5 ≤ (octets.drop 9).length := by
        by_contra hc
        unfold PriorityFrame.ofRaw PriorityFrame.constructPayload at hf
        rw [if_pos (by omega)] at hf
        cases hf
      have hlen : ∀ w, g.serialize = .ok w → w.length = 9 + 5 := by
        intro w hw
        rw [← Res.ok.inj hw]
        simp [netBytes_eq]
      refine ⟨_, rfl, ?_, hno _ fun he => ?_⟩
      · rw [hlen _ rfl]
        rw [List.length_drop] at h5; omega
      · have := hlen _ rfl
        rw [he] at this
        exact ⟨fun hh => hh.elim (absurd · (hne _ (by rw [h]; decide))) (absurd · (hne _ (by rw [h]; decide))),
          fun _ => this, fun hh => absurd hh (hne _ (by rw [h]; decide)),
          fun hh => absurd hh (hne _ (by rw [h]; decide))⟩
  | rstStream h g hf =>
      have h5 : 4 ≤ (octets.drop 9).length := by
        by_contra hc
        unfold RstStreamFrame.ofRaw at hf
        rw [if_pos (by omega)] at hf
        cases hf
      have hlen : ∀ w, g.serialize = .ok w → w.length = 9 + 4 := by
        intro w hw
        rw [← Res.ok.inj hw]
        simp [netBytes_eq]
      refine ⟨_, rfl, ?_, hno _ fun he => ?_⟩
      · rw [hlen _ rfl]
        rw [List.length_drop] at h5; omega
      · have := hlen _ rfl
        rw [he] at this
        exact ⟨fun hh => hh.elim (absurd · (hne _ (by rw [h]; decide))) (absurd · (hne _ (by rw [h]; decide))),
          fun hh => absurd hh (hne _ (by rw [h]; decide)), fun _ => this,
          fun hh => absurd hh (hne _ (by rw [h]; decide))⟩
  | settings h p hps =>
      have h6 : (octets.drop 9).length % 6 = 0 := by
        by_contra hc
        rw [parseSettings_malformed _ _ hc] at hps
        cases hps
      obtain ⟨ps, e1⟩ := settingsOctets_of_length _ h6
      rw [e1, parseSettings_ok] at hps
      have hp' := Res.ok.inj hps
      have hmap : IsMap p := by rw [← hp']; exact foldl_isMap ps List.Pairwise.nil
      have hle : p.length ≤ ps.length := by
        rw [← hp']
        have : ∀ (ps : List (UInt16 × UInt32)) (acc : SfPayload),
            (ps.foldl (fun m p => SfPayload.insert p.1 p.2 m) acc).length ≤ acc.length + ps.length := by
          intro ps
          induction ps with
          | nil => simp
          | cons a ps ih =>
              intro acc
              have h1 := ih (SfPayload.insert a.1 a.2 acc)
              have h2 : ∀ acc : SfPayload,
                  (SfPayload.insert a.1 a.2 acc).length ≤ acc.length + 1 := by
                intro acc
                induction acc with
                | nil => simp [SfPayload.insert]
                | cons b acc ih =>
                    unfold SfPayload.insert
                    split
                    · simp
                    · split
                      · simp
                      · simp only [List.length_cons]; omega
              have h3 := h2 acc
              simp only [List.foldl_cons, List.length_cons]; omega
        simpa using this ps []
      have hser : p.flatMap serializeSetting = settingsOctets p := by
        unfold settingsOctets serializeSetting settingOctets
        simp only [netBytes_eq]
      have hd : octets.length = 9 + 6 * ps.length := by
        have := congrArg List.length e1
        rw [settingsOctets_length, List.length_drop] at this
        omega
      refine ⟨_, rfl, ?_, hno _ fun he => ?_⟩
      · show (FrameHeader.serialize _ ++ p.flatMap serializeSetting).length ≤ _
        rw [List.length_append, FrameHeader.serialize_length, hser, settingsOctets_length]; omega
      · have he' : FrameHeader.serialize ⟨castToFhLength (6 * p.length), 4, fh.flags, 0, fh.streamId⟩ ++
            p.flatMap serializeSetting = octets := he
        rw [hser] at he'
        have hdrop : octets.drop 9 = settingsOctets p := by
          rw [← he', List.drop_left' (FrameHeader.serialize_length _)]
        have h0 := hsmall (hclear 4 (settingsOctets p) hshort (by
          rw [settingsOctets_length]; exact he'))
        exact ⟨fun _ => h0, fun hh => absurd hh (hne _ (by rw [h]; decide)),
          fun hh => absurd hh (hne _ (by rw [h]; decide)), fun _ => ⟨p, hdrop, hmap⟩⟩
  | headers h => exact absurd (plain_other htype (by rw [h]; decide)) hp
  | rawHeaders h => exact absurd (plain_other htype (by rw [h]; decide)) hp
  | pushPromise h => exact absurd (plain_other htype (by rw [h]; decide)) hp
  | ping h => exact absurd (plain_other htype (by rw [h]; decide)) hp
  | goaway h => exact absurd (plain_other htype (by rw [h]; decide)) hp
  | windowUpdate h => exact absurd (plain_other htype (by rw [h]; decide)) hp
  | continuation h => exact absurd (plain_other htype (by rw [h]; decide)) hp

/-- C96, one frame: a received frame can be written, and it is written as the octets it came from
exactly if they are `Plain`. Missing: frames whose sender departed from the RFC in the ways of
`Plain`, and SETTINGS frames with identifiers out of order or repeated, for which it is false. -/
theorem C96_received_frame_partial [Platform] (c : Client) (f : Frame)
    (h : c.receiveFrame.1 = .ok f) :
    ∃ w, f.serialize = .ok w ∧ w.length ≤ frameLength c.conn.incoming ∧
      (w = c.conn.incoming.take (frameLength c.conn.incoming) ↔
        Plain (c.conn.incoming.take (frameLength c.conn.incoming))) := by
  obtain ⟨octets, rest, h1, h2, -, h4, -⟩ := C58_returned c f h
  have ht : c.conn.incoming.take (frameLength c.conn.incoming) = octets := by
    rw [← h2, h1, List.take_left]
  rw [ht, ← h2]
  refine reserialize_exact ?_ h4
  rw [h2, h1]
  have h9 : 9 ≤ octets.length := by rw [h2]; unfold frameLength; omega
  unfold frameLength announced
  rw [List.take_append_of_le_length (by omega)]

/-- What a relay writes, and what it has read. -/
theorem relay_io [Platform] (n : Nat) (c d c' d' : Client) (h : relay n c d = (.ok (), c', d')) :
    ∃ read written, c.conn.incoming = read ++ c'.conn.incoming ∧
      d'.conn.sent = d.conn.sent ++ written ∧ written.length ≤ read.length ∧
      (written = read ↔ PlainStream n c.conn.incoming) := by
  induction n generalizing c d with
  | zero =>
      cases h
      exact ⟨[], [], rfl, by simp, Nat.le_refl _, by simp [PlainStream]⟩
  | succ n ih =>
      rw [relay] at h
      cases hr : c.receiveFrame with
      | mk r c1 =>
          rw [hr] at h
          cases r with
          | ok f =>
              have hf : c.receiveFrame.1 = .ok f := by rw [hr]
              obtain ⟨w, hs, hwl, hwp⟩ := C96_received_frame_partial c f hf
              obtain ⟨octets, rest, e1, e2, e3, -, -⟩ := C58_returned c f hf
              rw [hr] at e3
              have ht : c.conn.incoming.take (frameLength c.conn.incoming) = octets := by
                rw [← e2, e1, List.take_left]
              have hdr : c.conn.incoming.drop (frameLength c.conn.incoming) = rest := by
                rw [← e2, e1, List.drop_left]
              simp only at h e3
              unfold Client.sendFrame at h
              rw [hs] at h
              simp only at h
              obtain ⟨sent, writes, g1, -, ⟨g2, g3⟩ | ⟨g2, -⟩⟩ := C55_send d w
              · cases hd : d.sendRawData w with
                | mk r2 d2 =>
                    rw [hd] at h g1 g2
                    simp only at h g1 g2
                    subst g2
                    simp only at h
                    obtain ⟨read, written, i1, i2, i3, i4⟩ := ih c1 d2 h
                    have hc1 : c1.conn.incoming = rest := by rw [e3]
                    have hd2 : d2.conn.sent = d.conn.sent ++ w := by rw [g1, ← g3]
                    rw [← e2] at hwl
                    refine ⟨octets ++ read, w ++ written, ?_, ?_, ?_, ?_⟩
                    · rw [e1, ← hc1, i1, List.append_assoc]
                    · rw [i2, hd2, List.append_assoc]
                    · simp only [List.length_append]; omega
                    · rw [ht] at hwp
                      rw [hc1] at i4
                      rw [PlainStream, ht, hdr, ← hwp, ← i4]
                      constructor
                      · intro he
                        have hl := congrArg List.length he
                        simp only [List.length_append] at hl
                        exact List.append_inj he (by omega)
                      · rintro ⟨rfl, rfl⟩; rfl
              · cases hd : d.sendRawData w with
                | mk r2 d2 =>
                    rw [hd] at h g2
                    simp only at h g2
                    subst g2
                    simp at h
          | throw e => simp at h
          | ub k => simp at h
          | diverge => simp at h

/-- C96, a whole connection: what is read from one connection and sent over another without a
failure is written as it was read - no octet lost, added or changed - exactly if all of it is plain.
Missing: as in `C96_received_frame_partial`. -/
theorem C96_relay_partial [Platform] (n : Nat) (c d c' d' : Client)
    (h : relay n c d = (.ok (), c', d')) :
    d'.conn.sent ++ c'.conn.incoming = d.conn.sent ++ c.conn.incoming ↔
      PlainStream n c.conn.incoming := by
  obtain ⟨read, written, h1, h2, -, h4⟩ := relay_io n c d c' d' h
  rw [← h4, h1, h2]
  simp only [List.append_assoc, List.append_cancel_left_eq]
  exact ⟨fun he => List.append_cancel_right he, fun he => by rw [he]⟩

/-- A client that has received these octets and nothing else, over a transport that moves them one
call at a time. -/
def Client.over (incoming : Bytes) (calls : Nat) : Client :=
  .new ⟨incoming, [], List.replicate calls 64, List.replicate calls 64⟩

/-- C96 is false of SETTINGS frames: RFC 7540 6.5.3 has the receiver process a repeated identifier
in order, so the window of the peer behind a relay should end up 2, but it is told 1 only. -/
theorem C96_relay_violated [P : Platform] :
    Client.receiveFrame (.over (frameOctets 4 0 0 (settingsOctets [(4, 1), (4, 2)])) 4) =
      (.ok (.settings ⟨⟨6, 4, 0, 0, 0⟩, [(4, 1)]⟩), ⟨⟨[], [], [64, 64], [64, 64, 64, 64]⟩, .default, .default⟩) ∧
    (relay 1 (.over (frameOctets 4 0 0 (settingsOctets [(4, 1), (4, 2)])) 4) (.over [] 4)).1 = .ok () ∧
    (relay 1 (.over (frameOctets 4 0 0 (settingsOctets [(4, 1), (4, 2)])) 4) (.over [] 4)).2.2.conn.sent =
      frameOctets 4 0 0 (settingsOctets [(4, 1)]) := by
  rcases P with ⟨_ | _, _ | _⟩ <;> decide +kernel

/-- Three frames of a stream pass: SETTINGS, a padded DATA frame and a GOAWAY frame with its
reserved bit set. -/
example [P : Platform] : ∃ c' d', relay 3
    (.over (frameOctets 4 0 0 (settingsOctets [(3, 7), (4, 2)]) ++ frameOctets 0 8 1 [1, 65, 0] ++
      frameOctets 7 0 0 [0x80, 0, 0, 1, 0, 0, 0, 2, 66] ++ [1, 2]) 9) (.over [] 9) = (.ok (), c', d') ∧
    c'.conn.incoming = [1, 2] ∧ d'.conn.sent = frameOctets 4 0 0 (settingsOctets [(3, 7), (4, 2)]) ++
      frameOctets 0 8 1 [1, 65, 0] ++ frameOctets 7 0 0 [0x80, 0, 0, 1, 0, 0, 0, 2, 66] := by
  refine ⟨_, _, Prod.ext ?_ rfl, ?_⟩ <;> rcases P with ⟨_ | _, _ | _⟩ <;> decide +kernel

example : PlainStream 3 (frameOctets 4 0 0 (settingsOctets [(3, 7), (4, 2)]) ++
    frameOctets 0 8 1 [1, 65, 0] ++ frameOctets 7 0 0 [0x80, 0, 0, 1, 0, 0, 0, 2, 66] ++ [1, 2]) := by
  refine ⟨⟨by decide +kernel, by decide +kernel, by decide +kernel, fun _ => ?_⟩,
    ⟨by decide +kernel, by decide +kernel, by decide +kernel, fun h => ?_⟩,
    ⟨by decide +kernel, by decide +kernel, by decide +kernel, fun h => ?_⟩, trivial⟩
  · exact ⟨[(3, 7), (4, 2)], by decide +kernel, by decide⟩
  · exact absurd h (by decide +kernel)
  · exact absurd h (by decide +kernel)

end Mh2c
