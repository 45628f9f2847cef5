/-
Helper lemmas on the formatting of output streams.
-/
import Verif.Spec.Format
import Verif.Proofs.Dump

namespace Mh2c

open Out

theorem puts_nil (s : OStream) : s.puts [] = s := rfl

theorem puts_cons (s : OStream) (x : Out) (l : List Out) : s.puts (x :: l) = (s.put x).puts l := rfl

theorem puts_append (s : OStream) (l m : List Out) : s.puts (l ++ m) = (s.puts l).puts m := by
  simp [OStream.puts, List.foldl_append]

/-! ## The two models agree -/

theorem pad_zero (fmt : Format) (h : fmt.width = 0) (t : Bytes) : fmt.pad t = t := by
  unfold Format.pad
  simp [h]

theorem describes_text {s : Stream} {o : OStream} (h : Describes s o) (t : Bytes) :
    Describes (s.text t) (o.put (text t)) := by
  obtain ⟨h1, h2, h3, h4, h5, h6⟩ := h
  constructor <;> (simp [OStream.put, Stream.text, pad_zero _ h6, *]; try rfl)

theorem describes_number {s : Stream} {o : OStream} (h : Describes s o) (n : Nat) :
    Describes (s.number n) (o.put (number n)) := by
  obtain ⟨h1, h2, h3, h4, h5, h6⟩ := h
  have : o.fmt.digits n = Stream.digits (if s.hex then 16 else 10) n := by
    unfold Format.digits
    rw [h2, h3, h4]
    cases s.hex <;> simp
  constructor <;> (simp [OStream.put, Stream.number, pad_zero _ h6, *]; try rfl)

theorem describes_octet {s : Stream} {o : OStream} (h : Describes s o) (b : UInt8) :
    Describes (s.hexByte b) (o.puts [hex, setw 2, setfill 48, number b.toNat]) := by
  obtain ⟨h1, h2, h3, h4, h5, h6⟩ := h
  constructor <;>
    simp [OStream.puts, OStream.put, Stream.hexByte, Format.pad, Format.digits, *]

/-- The insertions do what the coarse model says. -/
def Runs (l : List Out) (F : Stream → Stream) : Prop :=
  ∀ s o, Describes s o → Describes (F s) (o.puts l)

theorem Runs.nil : Runs [] id := fun _ _ h => h

theorem Runs.append {l m : List Out} {F G : Stream → Stream} (h1 : Runs l F) (h2 : Runs m G) :
    Runs (l ++ m) (fun s => G (F s)) := by
  intro s o h
  rw [puts_append]
  exact h2 _ _ (h1 _ _ h)

theorem text_text (s : Stream) (a b : Bytes) : (s.text a).text b = s.text (a ++ b) := by
  simp [Stream.text]

theorem text_nil (s : Stream) : s.text [] = s := by simp [Stream.text]

/-- The characters of insertions of text. -/
def chars : List Out → Bytes
  | text t :: l => t ++ chars l
  | _ => []

/-- Only text is inserted. -/
def Texts (l : List Out) : Prop := ∀ x ∈ l, ∃ t, x = text t

theorem Runs.texts {l : List Out} (h : Texts l) : Runs l (Stream.text (chars l)) := by
  induction l with
  | nil => intro s o hs; simpa [chars, text_nil, puts_nil] using hs
  | cons x l ih =>
      obtain ⟨t, rfl⟩ := h x (by simp)
      intro s o hs
      rw [puts_cons]
      have := ih (fun y hy => h y (by simp [hy])) _ _ (describes_text hs t)
      simpa [chars, text_text] using this

theorem header_chars (fh : FrameHeader) (s : Stream) : s.text (chars fh.outs) = fh.dump s := by
  simp [FrameHeader.outs, chars, FrameHeader.dump]

theorem Runs.start (title : Bytes) (fh : FrameHeader) :
    Runs (startOuts title fh) (dumpStart title fh) := by
  have h : Texts (startOuts title fh) := by
    simp [Texts, startOuts, FrameHeader.outs]
  have := Runs.texts h
  intro s o hs
  have h2 := this s o hs
  have e : s.text (chars (startOuts title fh)) = dumpStart title fh s := by
    simp [startOuts, FrameHeader.outs, chars, dumpStart, FrameHeader.dump, text_text]
  rwa [e] at h2

theorem Runs.octets {m : List Out} {e : Bytes} (hm : Texts m) (he : chars m = e) (bs : Bytes) :
    ∀ n, Runs (octetOuts m n bs) (Stream.hexBytes e n bs) := by
  induction bs with
  | nil => intro n s o hs; exact hs
  | cons b bs ih =>
      intro n s o hs
      unfold octetOuts Stream.hexBytes
      rw [puts_append, puts_append]
      refine ih (n + 1) _ _ ?_
      split
      · have := Runs.texts hm _ _ (describes_octet hs b)
        rwa [he] at this
      · exact describes_text (describes_octet hs b) _

theorem data_chars (d : Bytes) : Texts (dataOuts d) ∧ chars (dataOuts d) = indentNewlines d := by
  induction d with
  | nil => exact ⟨by simp [Texts, dataOuts], rfl⟩
  | cons c d ih =>
      obtain ⟨h1, h2⟩ := ih
      unfold dataOuts indentNewlines at *
      simp only [List.flatMap_cons]
      split
      · refine ⟨?_, ?_⟩
        · intro x hx
          simp only [List.cons_append, List.nil_append, List.mem_cons] at hx
          rcases hx with rfl | rfl | hx
          · exact ⟨_, rfl⟩
          · exact ⟨_, rfl⟩
          · exact h1 x hx
        · simp [chars, h2]
      · refine ⟨?_, ?_⟩
        · intro x hx
          simp only [List.cons_append, List.nil_append, List.mem_cons] at hx
          rcases hx with rfl | hx
          · exact ⟨_, rfl⟩
          · exact h1 x hx
        · simp [chars, h2]

/-- Insertions that may fail do what the coarse model says. -/
def RunsRes (l : Res (List Out)) (F : Stream → Res Stream) : Prop :=
  ∀ s o, Describes s o → SameOutcome (l >>= fun l => .ok (o.puts l)) (F s)

theorem Runs.res {l : List Out} {F : Stream → Stream} (h : Runs l F) :
    RunsRes (.ok l) (fun s => .ok (F s)) := fun s o hs => h s o hs

theorem RunsRes.append {l m : Res (List Out)} {F G : Stream → Res Stream} (h1 : RunsRes l F)
    (h2 : RunsRes m G) :
    RunsRes (l >>= fun a => m >>= fun b => .ok (a ++ b)) (fun s => F s >>= G) := by
  intro s o hs
  have a1 := h1 s o hs
  cases l with
  | ok l =>
      simp only [Res.ok_bind] at a1 ⊢
      cases e : F s with
      | ok s1 =>
          rw [e] at a1
          have a2 := h2 s1 (o.puts l) a1
          cases m with
          | ok m => simpa [Res.ok_bind, puts_append] using a2
          | throw _ => simpa using a2
          | ub _ => simpa using a2
          | diverge => simpa using a2
      | throw _ => rw [e] at a1; exact a1.elim
      | ub _ => rw [e] at a1; exact a1.elim
      | diverge => rw [e] at a1; exact a1.elim
  | throw _ => cases e : F s <;> rw [e] at a1 <;> simp only [e] <;> first | exact a1.elim | exact a1
  | ub _ => cases e : F s <;> rw [e] at a1 <;> simp only [e] <;> first | exact a1.elim | exact a1
  | diverge => cases e : F s <;> rw [e] at a1 <;> simp only [e] <;> first | exact a1.elim | exact a1

theorem RunsRes.wrap {pre post : List Out} {m : Res (List Out)} {F H : Stream → Stream}
    {G : Stream → Res Stream} (h1 : Runs pre F) (h2 : RunsRes m G) (h3 : Runs post H) :
    RunsRes (m >>= fun b => .ok (pre ++ b ++ post)) (fun s => G (F s) >>= fun s => .ok (H s)) := by
  intro s o hs
  have a := h2 _ _ (h1 s o hs)
  cases m <;> cases e : G (F s) <;> rw [e] at a <;>
    simp only [e, Res.ok_bind, Res.throw_bind, Res.ub_bind, Res.diverge_bind, SameOutcome] at a ⊢ <;>
    first
      | exact a
      | (rw [puts_append, puts_append]; exact h3 _ _ a)

theorem RunsRes.congr {l m : Res (List Out)} {F G : Stream → Res Stream} (h : RunsRes l F)
    (h1 : l = m) (h2 : ∀ s, F s = G s) : RunsRes m G := by
  intro s o hs
  rw [← h1, ← h2]
  exact h s o hs

theorem runs_entry (e : HeaderEntry) : RunsRes (entryOuts e) (dumpEntry e) := by
  intro s o hs
  unfold entryOuts dumpEntry
  split
  · cases e.getMaxSize with
    | ok n =>
        have := Runs.texts (l := [text (bstr "    "), text (Stream.toString n),
          text (bstr " (dynamic table size update)\n")]) (by simp [Texts]) s o hs
        simpa [SameOutcome, chars] using this
    | throw _ => rfl
    | ub _ => rfl
    | diverge => trivial
  · cases e.getHeader with
    | ok h =>
        have := Runs.texts (l := [text (bstr "    "), text h.1, text (bstr ": "), text h.2,
          text (bstr "\n")]) (by simp [Texts]) s o hs
        simpa [SameOutcome, chars] using this
    | throw _ => rfl
    | ub _ => rfl
    | diverge => trivial

theorem runs_block (es : HeaderBlock) : RunsRes (blockOuts es) (dumpBlock es) := by
  induction es with
  | nil => intro s o hs; exact hs
  | cons e es ih => exact (runs_entry e).append ih

theorem runs_setting (p : UInt16 × UInt32) : RunsRes (settingOuts p) (dumpSetting p) := by
  intro s o hs
  unfold settingOuts dumpSetting
  split
  · cases mapAt sfParameterStrMap 7 with
    | ok n =>
        have := Runs.texts (l := [text (bstr "  "), text n, text (bstr "("),
          text (Stream.toString p.1.toNat), text (bstr "): ")]) (by simp [Texts]) s o hs
        have := describes_text (describes_number this p.2.toNat) (bstr "\n")
        simpa [SameOutcome, chars, puts_cons, puts_nil] using this
    | throw _ => rfl
    | ub _ => rfl
    | diverge => trivial
  · cases mapAt sfParameterStrMap p.1.toNat with
    | ok n =>
        have := Runs.texts (l := [text (bstr "  "), text n, text (bstr ": ")]) (by simp [Texts])
          s o hs
        have := describes_text (describes_number this p.2.toNat) (bstr "\n")
        simpa [SameOutcome, chars, puts_cons, puts_nil] using this
    | throw _ => rfl
    | ub _ => rfl
    | diverge => trivial

theorem runs_settings (ps : SfPayload) : RunsRes (settingsOuts ps) (dumpSettings ps) := by
  induction ps with
  | nil => intro s o hs; exact hs
  | cons p ps ih => exact (runs_setting p).append ih

theorem runs_errorCode (c : UInt32) : RunsRes (errorCodeOuts c) (dumpErrorCode c) := by
  intro s o hs
  unfold errorCodeOuts dumpErrorCode
  split
  · cases mapAt errorCodesStrMap c.toNat with
    | ok n =>
        have := Runs.texts (l := [text (bstr "  Error Code: "), text n, text (bstr "\n")])
          (by simp [Texts]) s o hs
        simpa [SameOutcome, chars] using this
    | throw _ => rfl
    | ub _ => rfl
    | diverge => trivial
  · cases mapAt errorCodesStrMap 14 with
    | ok n =>
        have := Runs.texts (l := [text (bstr "  Error Code: "), text n, text (bstr "("),
          text (Stream.toString c.toNat), text (bstr ")\n")]) (by simp [Texts]) s o hs
        simpa [SameOutcome, chars] using this
    | throw _ => rfl
    | ub _ => rfl
    | diverge => trivial

theorem runs_padding (flags : UInt8) (p : Bytes) :
    Runs (paddingOuts flags p) (dumpPadding flags p) := by
  intro s o hs
  unfold paddingOuts dumpPadding
  split
  · have h1 := describes_text (describes_text hs (bstr "  Padding:\n")) (bstr "    ")
    have h2 := Runs.octets (m := [text (bstr "\n"), text (bstr "    ")]) (e := bstr "\n    ")
      (by simp [Texts]) (by decide) p 0 _ _ h1
    have h3 := describes_text h2 (bstr "\n")
    simpa [puts_cons, puts_append, puts_nil] using h3
  · exact describes_text hs _

theorem runs_texts_then {l : List Out} {G : Stream → Stream} (h : Texts l)
    (hG : ∀ s, s.text (chars l) = G s) : Runs l G := by
  intro s o hs
  have := Runs.texts h s o hs
  rwa [hG] at this

theorem runs_debug (d : Bytes) : RunsRes (debugOuts d)
    (fun s => (if d.isEmpty then .ok [] else cString d) >>= fun t => .ok (s.text t)) := by
  intro s o hs
  unfold debugOuts
  split
  · simpa [SameOutcome, puts_nil, text_nil] using hs
  · cases cString d with
    | ok t => exact describes_text hs t
    | throw _ => rfl
    | ub _ => rfl
    | diverge => trivial

theorem runs_goaway (f : GoawayFrame) : RunsRes f.outs f.dump := by
  have h0 := Runs.start (bstr "=== GOAWAY FRAME ===\n") f.header
  have h1 := h0.append (Runs.texts (l := [text (bstr "  R: "),
    text (Stream.toString f.payload.reserved.toNat), text (bstr "\n"),
    text (bstr "  Last-Stream-ID: "), text (Stream.toString f.payload.lastStreamId.toNat),
    text (bstr "\n")]) (by simp [Texts]))
  have h2 := RunsRes.wrap (Runs.texts (l := [text (bstr "  Additional Debug Data: ")])
    (by simp [Texts])) (runs_debug f.payload.debugData)
    (Runs.texts (l := [text (bstr "\n")]) (by simp [Texts]))
  have h3 := RunsRes.wrap h1 ((runs_errorCode f.payload.errorCode).append h2) Runs.nil
  refine h3.congr ?_ ?_
  · unfold GoawayFrame.outs
    cases errorCodeOuts f.payload.errorCode <;> cases debugOuts f.payload.debugData <;> simp
  · intro s
    unfold GoawayFrame.dump
    simp only [chars, List.append_nil, List.append_assoc]
    generalize dumpErrorCode f.payload.errorCode _ = r
    cases r <;> simp only [Res.ok_bind, Res.throw_bind, Res.ub_bind, Res.diverge_bind, id]
    split
    · rfl
    · cases cString f.payload.debugData <;> rfl

theorem runs_frame [Platform] (f : Frame) : RunsRes f.outs f.dump := by
  cases f with
  | data f =>
      change RunsRes f.outs f.dump
      intro s o hs
      unfold DataFrame.outs DataFrame.dump
      cases f.parts with
      | ok a =>
          obtain ⟨padLength, data, padding⟩ := a
          obtain ⟨d1, d2⟩ := data_chars data
          simp only [Res.ok_bind, Res.pure_eq, SameOutcome]
          have h0 := Runs.start (bstr "=== DATA FRAME ===\n") f.header s o hs
          have h1 := Runs.texts (l := [text (bstr "  Pad Length: "),
            text (Stream.toString padLength.toNat), text (bstr "\n"),
            text (bstr "  Data      : \n"), text (bstr "    ")]) (by simp [Texts]) _ _ h0
          have h2 := Runs.texts d1 _ _ h1
          have h3 := Runs.texts (l := [text (bstr "\n"), text (bstr "  Padding   : \n")])
            (by simp [Texts]) _ _ h2
          have h4 := Runs.octets (m := [text (bstr "\n              ")])
            (e := bstr "\n              ") (by simp [Texts]) (by simp [chars]) padding 0 _ _ h3
          have h5 := describes_text h4 (bstr "\n")
          rw [d2] at h5
          simpa [puts_append, puts_cons, puts_nil, chars, text_text] using h5
      | throw _ => rfl
      | ub _ => rfl
      | diverge => trivial
  | headers f =>
      refine (RunsRes.wrap ((Runs.start (bstr "=== HEADERS FRAME ===\n") f.header).append
        (Runs.texts (l := _) ?_)) (runs_block f.headerBlock)
        (runs_padding f.header.flags f.padding)).congr rfl ?_
      · simp [Texts]
      · intro s
        change _ = f.dump s
        simp [HeadersFrame.dump, chars]
  | priority f =>
      refine (((Runs.start (bstr "=== PRIORITY FRAME ===\n") f.header).append
        (Runs.texts (l := _) ?_)).res).congr rfl ?_
      · simp [Texts]
      · intro s
        change _ = f.dump s
        simp [PriorityFrame.dump, chars]
  | rstStream f =>
      refine (RunsRes.wrap (Runs.start (bstr "=== RST_STREAM FRAME ===\n") f.header)
        (runs_errorCode f.errorCode) Runs.nil).congr (m := f.outs) ?_ ?_
      · simp [RstStreamFrame.outs]
      · intro s
        change _ = f.dump s
        unfold RstStreamFrame.dump
        cases dumpErrorCode f.errorCode _ <;> rfl
  | settings f =>
      refine (RunsRes.wrap (Runs.start (bstr "=== SETTINGS FRAME ===\n") f.header)
        (runs_settings f.payload) Runs.nil).congr (m := f.outs) ?_ ?_
      · simp [SettingsFrame.outs]
      · intro s
        change _ = f.dump s
        unfold SettingsFrame.dump
        cases dumpSettings f.payload _ <;> rfl
  | pushPromise f =>
      refine (RunsRes.wrap ((Runs.start (bstr "=== PUSH_PROMISE FRAME ===\n") f.header).append
        (Runs.texts (l := _) ?_)) (runs_block f.payload.headerBlock)
        (runs_padding f.header.flags f.payload.padding)).congr rfl ?_
      · simp [Texts]
      · intro s
        change _ = f.dump s
        simp [PushPromiseFrame.dump, chars]
  | ping f =>
      refine ((((Runs.start (bstr "=== PING_STREAM FRAME ===\n") f.header).append
        (Runs.octets (m := [text (bstr "\n")]) (e := bstr "\n") (by simp [Texts]) (by simp [chars])
          f.opaqueData 0)).append (Runs.texts (l := [text (bstr "\n")]) ?_)).res).congr rfl ?_
      · simp [Texts]
      · intro s
        change _ = f.dump s
        simp [PingFrame.dump, chars]
  | goaway f => exact runs_goaway f
  | windowUpdate f =>
      refine (((Runs.start (bstr "=== WINDOW_UPDATE FRAME ===\n") f.header).append
        (Runs.texts (l := _) ?_)).res).congr rfl ?_
      · simp [Texts]
      · intro s
        change _ = f.dump s
        simp [WindowUpdateFrame.dump, chars]
  | continuation f =>
      refine (RunsRes.wrap ((Runs.start (bstr "=== CONTINUATION FRAME ===\n") f.header).append
        (Runs.texts (l := [text (bstr "  Header Block:\n")]) ?_)) (runs_block f.headerBlock)
        Runs.nil).congr (m := f.outs) ?_ ?_
      · simp [Texts]
      · simp [ContinuationFrame.outs]
      · intro s
        change _ = f.dump s
        simp only [ContinuationFrame.dump, chars, List.append_nil]
        cases dumpBlock f.headerBlock _ <;> rfl
  | raw f =>
      refine ((((Runs.start (bstr "=== GENERIC FRAME (unimplemented) ===\n") f.header).append
        (Runs.octets (m := [text (bstr "\n")]) (e := bstr "\n") (by simp [Texts]) (by simp [chars])
          f.payload 0)).append (Runs.texts (l := [text (bstr "\n")]) ?_)).res).congr rfl ?_
      · simp [Texts]
      · intro s
        change _ = f.dump s
        simp [RawFrame.dump, chars]

/-! ## What the insertions read and change -/

/-- Lists of insertions made of texts, of integers printed in the base in force (only if `n`) and
of octets printed in hexadecimal (only if `o`). -/
inductive Segs (o n : Bool) : List Out → Prop
  | nil : Segs o n []
  | text (t : Bytes) {l : List Out} : Segs o n l → Segs o n (text t :: l)
  | number (k : Nat) {l : List Out} : n = true → Segs o n l → Segs o n (number k :: l)
  | octet (b : UInt8) {l : List Out} : o = true → Segs o n l →
      Segs o n (hex :: setw 2 :: setfill 48 :: Out.number b.toNat :: l)

theorem Segs.append {o n : Bool} {l m : List Out} (h1 : Segs o n l) (h2 : Segs o n m) :
    Segs o n (l ++ m) := by
  induction h1 with
  | nil => exact h2
  | text t _ ih => exact .text t ih
  | number k hk _ ih => exact .number k hk ih
  | octet b hb _ ih => exact .octet b hb ih

theorem Segs.texts {o n : Bool} {l : List Out} (h : Texts l) : Segs o n l := by
  induction l with
  | nil => exact .nil
  | cons x l ih =>
      obtain ⟨t, rfl⟩ := h x (by simp)
      exact .text t (ih (fun y hy => h y (by simp [hy])))

theorem Segs.octets {n : Bool} {m : List Out} (hm : Texts m) (bs : Bytes) :
    ∀ k, Segs true n (octetOuts m k bs) := by
  induction bs with
  | nil => intro k; exact .nil
  | cons b bs ih =>
      intro k
      unfold octetOuts
      refine .octet b rfl ?_
      refine Segs.append ?_ (ih (k + 1))
      split
      · exact .texts hm
      · exact .text _ .nil

theorem Segs.quiet {n : Bool} {l : List Out} (h : Segs true n l) (hl : hex ∉ l) : Segs false n l := by
  induction h with
  | nil => exact .nil
  | text t _ ih => exact .text t (ih (by simpa using hl))
  | number k hk _ ih => exact .number k hk (ih (by simpa using hl))
  | octet b _ _ _ => simp at hl

theorem texts_block {es : HeaderBlock} {l : List Out} (h : blockOuts es = .ok l) : Texts l := by
  induction es generalizing l with
  | nil => cases h; simp [Texts]
  | cons e es ih =>
      unfold blockOuts at h
      obtain ⟨a, h1, h⟩ := Res.bind_eq_ok.1 h
      obtain ⟨b, h2, h⟩ := Res.bind_eq_ok.1 h
      cases h
      have ha : Texts a := by
        unfold entryOuts at h1
        split at h1 <;> obtain ⟨x, _, h1⟩ := Res.bind_eq_ok.1 h1 <;> cases h1 <;> simp [Texts]
      intro x hx
      rcases List.mem_append.1 hx with hx | hx
      · exact ha x hx
      · exact ih h2 x hx

theorem texts_errorCode {c : UInt32} {l : List Out} (h : errorCodeOuts c = .ok l) : Texts l := by
  unfold errorCodeOuts at h
  split at h <;> obtain ⟨x, _, h⟩ := Res.bind_eq_ok.1 h <;> cases h <;> simp [Texts]

theorem segs_settings {ps : SfPayload} {l : List Out} (h : settingsOuts ps = .ok l) :
    Segs true (!ps.isEmpty) l := by
  have key : ∀ {l}, settingsOuts ps = .ok l → Segs true true l := by
    clear h
    induction ps with
    | nil => intro l h; cases h; exact .nil
    | cons p ps ih =>
        intro l h
        unfold settingsOuts at h
        obtain ⟨a, h1, h⟩ := Res.bind_eq_ok.1 h
        obtain ⟨b, h2, h⟩ := Res.bind_eq_ok.1 h
        cases h
        refine Segs.append ?_ (ih h2)
        unfold settingOuts at h1
        split at h1 <;> obtain ⟨x, _, h1⟩ := Res.bind_eq_ok.1 h1 <;> cases h1
        · exact .text _ (.text _ (.text _ (.text _ (.text _ (.number _ rfl (.text _ .nil))))))
        · exact .text _ (.text _ (.text _ (.number _ rfl (.text _ .nil))))
  cases ps with
  | nil => cases h; exact .nil
  | cons p ps => exact key h

theorem texts_start (t : Bytes) (fh : FrameHeader) : Texts (startOuts t fh) := by
  simp [Texts, startOuts, FrameHeader.outs]

theorem segs_padding {n : Bool} (flags : UInt8) (p : Bytes) : Segs true n (paddingOuts flags p) := by
  unfold paddingOuts
  split
  · exact .text _ (.text _ ((Segs.octets (by simp [Texts]) p 0).append (.text _ .nil)))
  · exact .text _ .nil

/-- The frame prints integers in the base in force: SETTINGS with a parameter. -/
def printsNumbers : Frame → Bool
  | .settings f => !f.payload.isEmpty
  | _ => false

theorem segs_frame [Platform] {f : Frame} {l : List Out} (h : f.outs = .ok l) :
    Segs true (printsNumbers f) l := by
  cases f with
  | data f =>
      obtain ⟨⟨a, b, c⟩, _, h⟩ := Res.bind_eq_ok.1 (show f.outs = .ok l from h)
      cases h
      exact (((((Segs.texts (texts_start _ _)).append (.texts (by simp [Texts]))).append
        (.texts (data_chars b).1)).append (.texts (by simp [Texts]))).append
        (.octets (by simp [Texts]) c 0)).append (.text _ .nil)
  | headers f =>
      obtain ⟨b, hb, h⟩ := Res.bind_eq_ok.1 (show f.outs = .ok l from h)
      cases h
      exact (((Segs.texts (texts_start _ _)).append (.texts (by simp [Texts]))).append
        (.texts (texts_block hb))).append (segs_padding _ _)
  | priority f =>
      cases (show Res.ok f.outs = .ok l from h)
      exact (Segs.texts (texts_start _ _)).append (.texts (by simp [Texts]))
  | rstStream f =>
      obtain ⟨b, hb, h⟩ := Res.bind_eq_ok.1 (show f.outs = .ok l from h)
      cases h
      exact (Segs.texts (texts_start _ _)).append (.texts (texts_errorCode hb))
  | settings f =>
      obtain ⟨b, hb, h⟩ := Res.bind_eq_ok.1 (show f.outs = .ok l from h)
      cases h
      exact (Segs.texts (texts_start _ _)).append (segs_settings hb)
  | pushPromise f =>
      obtain ⟨b, hb, h⟩ := Res.bind_eq_ok.1 (show f.outs = .ok l from h)
      cases h
      exact (((Segs.texts (texts_start _ _)).append (.texts (by simp [Texts]))).append
        (.texts (texts_block hb))).append (segs_padding _ _)
  | ping f =>
      cases (show Res.ok f.outs = .ok l from h)
      exact ((Segs.texts (texts_start _ _)).append (.octets (by simp [Texts]) _ 0)).append
        (.text _ .nil)
  | goaway f =>
      obtain ⟨b, hb, h⟩ := Res.bind_eq_ok.1 (show f.outs = .ok l from h)
      obtain ⟨d, hd, h⟩ := Res.bind_eq_ok.1 h
      cases h
      have h1 : Texts d := by
        unfold debugOuts at hd
        split at hd
        · cases hd; simp [Texts]
        · obtain ⟨t, _, hd⟩ := Res.bind_eq_ok.1 hd
          cases hd; simp [Texts]
      exact ((((Segs.texts (texts_start _ _)).append (.texts (by simp [Texts]))).append
        (.texts (texts_errorCode hb))).append (.text _ (.texts h1))).append (.text _ .nil)
  | windowUpdate f =>
      cases (show Res.ok f.outs = .ok l from h)
      exact (Segs.texts (texts_start _ _)).append (.texts (by simp [Texts]))
  | continuation f =>
      obtain ⟨b, hb, h⟩ := Res.bind_eq_ok.1 (show f.outs = .ok l from h)
      cases h
      exact (Segs.texts (texts_start _ _)).append (.text _ (.texts (texts_block hb)))
  | raw f =>
      cases (show Res.ok f.outs = .ok l from h)
      exact ((Segs.texts (texts_start _ _)).append (.octets (by simp [Texts]) _ 0)).append
        (.text _ .nil)

/-- The formatting after insertions that start with no width. -/
theorem segs_format {o n : Bool} {l : List Out} (h : Segs o n l) (s : OStream)
    (hs : s.fmt.width = 0) :
    (s.puts l).fmt = { s.fmt with
      base := if hex ∈ l then .hex else s.fmt.base
      fill := if hex ∈ l then 48 else s.fmt.fill } := by
  induction h generalizing s with
  | nil => simp [puts_nil]
  | text t _ ih =>
      rw [puts_cons, ih _ rfl]
      simp [OStream.put, hs]
  | number k _ _ ih =>
      rw [puts_cons, ih _ rfl]
      simp [OStream.put, hs]
  | octet b _ _ ih =>
      rw [puts_cons, puts_cons, puts_cons, puts_cons, ih _ rfl]
      simp [OStream.put, hs]

/-- The text that insertions add does not depend on what they do not read. -/
theorem segs_same {o n : Bool} {l : List Out} (h : Segs o n l) (s1 s2 : OStream)
    (h1 : s1.fmt.width = 0) (h2 : s2.fmt.width = 0)
    (ho : o = true → s1.fmt.uppercase = s2.fmt.uppercase ∧ s1.fmt.showbase = s2.fmt.showbase ∧
      s1.fmt.left = s2.fmt.left)
    (hn : n = true → s1.fmt.uppercase = s2.fmt.uppercase ∧ s1.fmt.showbase = s2.fmt.showbase ∧
      s1.fmt.base = s2.fmt.base) :
    ∃ t, (s1.puts l).out = s1.out ++ t ∧ (s2.puts l).out = s2.out ++ t := by
  induction h generalizing s1 s2 with
  | nil => exact ⟨[], by simp [puts_nil], by simp [puts_nil]⟩
  | text t _ ih =>
      obtain ⟨u, e1, e2⟩ := ih (s1.put (.text t)) (s2.put (.text t)) rfl rfl ho hn
      refine ⟨t ++ u, ?_, ?_⟩
      · rw [puts_cons, e1]; simp [OStream.put, pad_zero _ h1]
      · rw [puts_cons, e2]; simp [OStream.put, pad_zero _ h2]
  | number k hk _ ih =>
      obtain ⟨u, e1, e2⟩ := ih (s1.put (.number k)) (s2.put (.number k)) rfl rfl ho hn
      obtain ⟨a, b, c⟩ := hn hk
      refine ⟨s1.fmt.digits k ++ u, ?_, ?_⟩
      · rw [puts_cons, e1]; simp [OStream.put, pad_zero _ h1]
      · have : s1.fmt.digits k = s2.fmt.digits k := by simp only [Format.digits, a, b, c]
        rw [puts_cons, e2, this]; simp [OStream.put, pad_zero _ h2]
  | octet b hb _ ih =>
      obtain ⟨u, e1, e2⟩ := ih (s1.puts [hex, setw 2, setfill 48, .number b.toNat])
        (s2.puts [hex, setw 2, setfill 48, .number b.toNat]) rfl rfl ho
        (fun hk => ⟨(hn hk).1, (hn hk).2.1, rfl⟩)
      obtain ⟨a, b', c⟩ := ho hb
      refine ⟨({ s1.fmt with base := .hex, width := 2, fill := 48 } : Format).pad
        (({ s1.fmt with base := .hex, width := 2, fill := 48 } : Format).digits b.toNat) ++ u, ?_, ?_⟩
      · have : ∀ s : OStream, ∀ m, s.puts (hex :: setw 2 :: setfill 48 :: .number b.toNat :: m) =
          (s.puts [hex, setw 2, setfill 48, .number b.toNat]).puts m := fun _ _ => rfl
        rw [this, e1]
        simp [OStream.put, OStream.puts]
      · have : ∀ s : OStream, ∀ m, s.puts (hex :: setw 2 :: setfill 48 :: .number b.toNat :: m) =
          (s.puts [hex, setw 2, setfill 48, .number b.toNat]).puts m := fun _ _ => rfl
        rw [this, e2]
        simp [OStream.put, OStream.puts, Format.pad, Format.digits, a, b', c]

end Mh2c
