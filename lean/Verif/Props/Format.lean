/-
C130-C132: printing on streams with any formatting.
-/
import Verif.Proofs.Format
import Verif.Props.Dump
import Verif.Props.Identify

namespace Mh2c

open Rfc Out

/-- C131, the link to the theorems on `Frame.dump` (C67-C77): on every stream with the flags a stream
has at first, in decimal or hexadecimal and with any fill character, the finer model of printing
has the outcome, the text and the base of the coarse one. -/
theorem C131_models_agree [Platform] (f : Frame) (s : Stream) (o : OStream) (h : Describes s o) :
    SameOutcome (f.print o) (f.dump s) :=
  runs_frame f s o h

attribute [local instance] x86 in
/-- The stream on which a PING frame was printed is described by the one in hexadecimal, and a
SETTINGS frame is printed on it in hexadecimal. -/
example : Describes ⟨bstr "x", true⟩ ⟨bstr "x", .hex, false, false, false, 48, 0⟩ ∧
    ∃ before, printedOn (.settings ⟨⟨6, 4, 0, 0, 0⟩, [(4, 65535)]⟩)
      ⟨bstr "x", .hex, false, false, false, 48, 0⟩ = .ok (before ++ bstr "SIZE: ffff\n") :=
  ⟨by constructor <;> rfl,
    startText (.settings ⟨⟨6, 4, 0, 0, 0⟩, [(4, 65535)]⟩) ++ bstr "  SETTINGS_INITIAL_WINDOW_",
    by decide +kernel⟩

theorem print_eq_ok [Platform] {f : Frame} {s s' : OStream} (h : f.print s = .ok s') :
    ∃ l, f.outs = .ok l ∧ s' = s.puts l := by
  obtain ⟨l, h1, h2⟩ := Res.bind_eq_ok.1 h
  exact ⟨l, h1, (Res.ok.inj h2).symm⟩

/-- The first insertion is the title. -/
theorem outs_head [Platform] {f : Frame} {l : List Out} (h : f.outs = .ok l) :
    ∃ m, l = text (title f ++ [10]) :: m := by
  cases f with
  | data f =>
      obtain ⟨⟨a, b, c⟩, _, h⟩ := Res.bind_eq_ok.1 (show f.outs = .ok l from h)
      cases h; exact ⟨_, rfl⟩
  | headers f =>
      obtain ⟨b, _, h⟩ := Res.bind_eq_ok.1 (show f.outs = .ok l from h)
      cases h; exact ⟨_, rfl⟩
  | priority f => cases (show Res.ok f.outs = .ok l from h); exact ⟨_, rfl⟩
  | rstStream f =>
      obtain ⟨b, _, h⟩ := Res.bind_eq_ok.1 (show f.outs = .ok l from h)
      cases h; exact ⟨_, rfl⟩
  | settings f =>
      obtain ⟨b, _, h⟩ := Res.bind_eq_ok.1 (show f.outs = .ok l from h)
      cases h; exact ⟨_, rfl⟩
  | pushPromise f =>
      obtain ⟨b, _, h⟩ := Res.bind_eq_ok.1 (show f.outs = .ok l from h)
      cases h; exact ⟨_, rfl⟩
  | ping f => cases (show Res.ok f.outs = .ok l from h); exact ⟨_, rfl⟩
  | goaway f =>
      obtain ⟨b, _, h⟩ := Res.bind_eq_ok.1 (show f.outs = .ok l from h)
      obtain ⟨d, _, h⟩ := Res.bind_eq_ok.1 h
      cases h; exact ⟨_, rfl⟩
  | windowUpdate f => cases (show Res.ok f.outs = .ok l from h); exact ⟨_, rfl⟩
  | continuation f =>
      obtain ⟨b, _, h⟩ := Res.bind_eq_ok.1 (show f.outs = .ok l from h)
      cases h; exact ⟨_, rfl⟩
  | raw f => cases (show Res.ok f.outs = .ok l from h); exact ⟨_, rfl⟩

theorem segs_tail {o n : Bool} {t : Bytes} {m : List Out} (h : Segs o n (text t :: m)) :
    Segs o n m := by
  cases h with
  | text _ h => exact h

/-- A frame printed without failure sets `std::hex` just if it prints octets. -/
theorem outs_hex [Platform] {f : Frame} {l : List Out} (h : f.outs = .ok l)
    (hd : ∀ g, f = .data g → g = DataFrame.new g.header.flags g.header.streamId g.payload ∧
      g.payload.length < 2 ^ 24) : hex ∈ l ↔ PrintsOctets f := by
  have h1 : Describes ⟨[], false⟩ ⟨[], Format.initial⟩ := by constructor <;> rfl
  have h2 := runs_frame f _ _ h1
  rw [h] at h2
  cases e : f.dump ⟨[], false⟩ with
  | ok s' =>
      rw [e] at h2
      have h3 : Describes s' (OStream.puts ⟨[], Format.initial⟩ l) := h2
      have h4 := C67_base_change f _ _ e hd
      have h5 := h3.base
      rw [segs_format (segs_frame h) _ rfl] at h5
      simp only [Format.initial, Bool.false_eq_true, false_or] at h4 h5
      rw [← h4]
      by_cases hl : hex ∈ l <;> cases hx : s'.hex <;> simp [hl, hx] at h5 ⊢
  | throw _ => rw [e] at h2; exact h2.elim
  | ub _ => rw [e] at h2; exact h2.elim
  | diverge => rw [e] at h2; exact h2.elim

/-! ## C130 -/

/-- C130, exactly what printing a frame does to the formatting of a stream, whatever it was: the width
is used up; if octets are printed, the stream is left in hexadecimal and with the fill character
`0`; nothing else changes. Missing: frames that print octets, see `C130_formatting_violated`. -/
theorem C130_formatting_partial [Platform] (f : Frame) (s s' : OStream) (h : f.print s = .ok s')
    (hd : ∀ g, f = .data g → g = DataFrame.new g.header.flags g.header.streamId g.payload ∧
      g.payload.length < 2 ^ 24) :
    (¬ PrintsOctets f → s'.fmt = { s.fmt with width := 0 }) ∧
    (PrintsOctets f → s'.fmt = { s.fmt with width := 0, base := .hex, fill := 48 }) := by
  obtain ⟨l, h1, rfl⟩ := print_eq_ok h
  have h2 := outs_hex h1 hd
  obtain ⟨m, rfl⟩ := outs_head h1
  have h3 := segs_tail (segs_frame h1)
  rw [puts_cons, segs_format h3 _ rfl]
  have h4 : hex ∈ m ↔ PrintsOctets f := by simpa using h2
  constructor
  · intro hp
    simp [OStream.put, mt h4.1 hp]
  · intro hp
    simp [OStream.put, h4.2 hp]

attribute [local instance] x86 in
/-- A WINDOW_UPDATE frame leaves a stream set to octal, left-adjusted and with a width as it was,
except for the width. -/
example :
    ∃ s', (Frame.windowUpdate ⟨⟨4, 8, 0, 0, 1⟩, 0, 5⟩).print
        ⟨[], .oct, true, true, true, 46, 30⟩ = .ok s' ∧
      ¬ PrintsOctets (.windowUpdate ⟨⟨4, 8, 0, 0, 1⟩, 0, 5⟩) ∧
      s'.fmt = ⟨.oct, true, true, true, 46, 0⟩ :=
  ⟨_, rfl, fun h => h, rfl⟩

/-- C130 is false of the code: after a PING frame was printed on a stream with the formatting
streams start with, the program's own `255` comes out as `ff` and its `7` in a field of three as
`007`. -/
theorem C130_formatting_violated [P : Platform] :
    ∃ ping s', buildFrame ⟨8, 6, 0, 0, 0⟩ [0, 0, 0, 0, 0, 0, 0, 1] .default = .ok ping ∧
      ping.print ⟨[], Format.initial⟩ = .ok s' ∧
      (s'.put (.number 255)).out = s'.out ++ bstr "ff" ∧
      (s'.puts [.setw 3, .number 7]).out = s'.out ++ bstr "007" ∧
      (OStream.put ⟨[], Format.initial⟩ (.number 255)).out = bstr "255" ∧
      (OStream.puts ⟨[], Format.initial⟩ [.setw 3, .number 7]).out = bstr "  7" := by
  refine ⟨.ping ⟨⟨8, 6, 0, 0, 0⟩, [0, 0, 0, 0, 0, 0, 0, 1]⟩, _, ?_, rfl, ?_, ?_, ?_, ?_⟩
  · rcases P with ⟨_ | _, _ | _⟩ <;> decide +kernel
  · rcases P with ⟨_ | _, _ | _⟩ <;> decide +kernel
  · rcases P with ⟨_ | _, _ | _⟩ <;> decide +kernel
  · decide +kernel
  · decide +kernel

/-! ## C131 -/

theorem printsNumbers_iff (f : Frame) : printsNumbers f = true ↔ HasSettings f := by
  cases f <;> simp [printsNumbers, HasSettings]

/-- C131, the part that holds: on two streams without a width, the outcome and the text are the same
whatever was written before and whatever their formatting, provided that they agree on upper case,
base prefix and adjustment if the frame prints octets, and on upper case, base prefix and base if
it is a SETTINGS frame with parameters. Missing: those frames on streams that differ in this, see
`C131_showbase_violated`, `C131_left_violated` and `C67_settings_violated`; streams with a width, see
`C131_width_partial`. -/
theorem C131_independent_partial [Platform] (f : Frame) (s1 s2 : OStream)
    (hd : ∀ g, f = .data g → g = DataFrame.new g.header.flags g.header.streamId g.payload ∧
      g.payload.length < 2 ^ 24)
    (h1 : s1.fmt.width = 0) (h2 : s2.fmt.width = 0)
    (ho : PrintsOctets f → s1.fmt.uppercase = s2.fmt.uppercase ∧
      s1.fmt.showbase = s2.fmt.showbase ∧ s1.fmt.left = s2.fmt.left)
    (hn : HasSettings f → s1.fmt.uppercase = s2.fmt.uppercase ∧
      s1.fmt.showbase = s2.fmt.showbase ∧ s1.fmt.base = s2.fmt.base) :
    printedOn f s1 = printedOn f s2 := by
  unfold printedOn Frame.print
  cases h : f.outs with
  | ok l =>
      have hs := segs_frame h
      have hn' := fun hk => hn ((printsNumbers_iff f).1 hk)
      have key : ∃ t, (s1.puts l).out = s1.out ++ t ∧ (s2.puts l).out = s2.out ++ t := by
        by_cases hp : PrintsOctets f
        · exact segs_same hs s1 s2 h1 h2 (fun _ => ho hp) hn'
        · exact segs_same (hs.quiet (fun hc => hp ((outs_hex h hd).1 hc))) s1 s2 h1 h2
            (fun hc => by cases hc) hn'
      obtain ⟨t, e1, e2⟩ := key
      simp [e1, e2]
  | throw _ => rfl
  | ub _ => rfl
  | diverge => rfl

attribute [local instance] x86 in
/-- RST_STREAM on an upper case, octal, left-adjusted stream and on a fresh one; PING on a stream in
octal and on a fresh one. -/
example :
    (∃ t, printedOn (.rstStream ⟨⟨4, 3, 0, 0, 1⟩, 8⟩) ⟨bstr "x", .oct, true, true, true, 46, 0⟩ =
        .ok t ∧ printedOn (.rstStream ⟨⟨4, 3, 0, 0, 1⟩, 8⟩) ⟨[], Format.initial⟩ = .ok t) ∧
    (∃ t, printedOn (.ping ⟨⟨8, 6, 0, 0, 0⟩, [1, 2, 3, 4, 5, 6, 7, 8]⟩)
        ⟨bstr "x", .oct, false, false, false, 46, 0⟩ = .ok t ∧
      printedOn (.ping ⟨⟨8, 6, 0, 0, 0⟩, [1, 2, 3, 4, 5, 6, 7, 8]⟩) ⟨[], Format.initial⟩ = .ok t) := by
  refine ⟨⟨_, rfl, ?_⟩, ⟨_, rfl, ?_⟩⟩ <;> decide +kernel

/-- C131, streams with a width: the title line alone is padded. On a right-adjusted stream the
padding comes before the text, on a left-adjusted one after the first line. Missing: independence
of the width. -/
theorem C131_width_partial [Platform] (f : Frame) (s : OStream) (t : Bytes)
    (h : printedOn f { s with fmt := { s.fmt with width := 0 } } = .ok t) :
    ∃ rest, t = title f ++ [10] ++ rest ∧
      printedOn f s = .ok
        (let p := List.replicate (s.fmt.width - ((title f).length + 1)) s.fmt.fill
         if s.fmt.left then title f ++ [10] ++ p ++ rest else p ++ title f ++ [10] ++ rest) := by
  unfold printedOn at h ⊢
  obtain ⟨s', h1, h2⟩ := Res.bind_eq_ok.1 h
  obtain ⟨l, h3, rfl⟩ := print_eq_ok h1
  obtain ⟨m, rfl⟩ := outs_head h3
  have h4 := segs_tail (segs_frame h3)
  let a := s.put (.text (title f ++ [10]))
  let b := OStream.put { s with fmt := { s.fmt with width := 0 } } (.text (title f ++ [10]))
  obtain ⟨u, e1, e2⟩ := segs_same h4 a b rfl rfl (fun _ => ⟨rfl, rfl, rfl⟩) (fun _ => ⟨rfl, rfl, rfl⟩)
  refine ⟨u, ?_, ?_⟩
  · have := Res.ok.inj h2
    rw [← this, puts_cons, e2]
    simp [b, OStream.put, Format.pad]
  · unfold Frame.print
    rw [h3]
    simp only [Res.ok_bind, Res.pure_eq, puts_cons]
    rw [e1]
    simp only [a, OStream.put, Format.pad]
    split <;> simp

attribute [local instance] x86 in
/-- A PRIORITY frame after `std::setw(30)`. -/
example : ∃ t, printedOn (.priority ⟨⟨5, 2, 0, 0, 3⟩, ⟨1, 0, 15⟩⟩)
      ⟨[], { Format.initial with width := 0 }⟩ = .ok t ∧
    printedOn (.priority ⟨⟨5, 2, 0, 0, 3⟩, ⟨1, 0, 15⟩⟩) ⟨[], { Format.initial with width := 30 }⟩ =
      .ok (bstr "       " ++ t) :=
  ⟨_, rfl, by decide +kernel⟩

theorem upper_eq (c : UInt8) : upperDigit c = upperCase c := by
  unfold upperDigit upperCase
  simp only [UInt8.le_iff_toNat_le]
  rfl

/-- The model writes numbers as the specification says. -/
theorem numberOn_eq (fmt : Format) (n : Nat) : fmt.digits n = numberOn fmt n := by
  obtain ⟨base, up, sb, l, f, w⟩ := fmt
  have hu : upperDigit = upperCase := funext upper_eq
  have ha : bstr "0" = ascii "0" := rfl
  have hb : bstr "0x" = ascii "0x" := rfl
  unfold Format.digits numberOn
  cases base <;> cases sb <;> by_cases hn : n = 0 <;>
    simp [hn, hu, ha, hb, digits_eq]

theorem octetOn_eq (fmt : Format) (b : UInt8) :
    ({ fmt with base := .hex, width := 2, fill := 48 } : Format).pad
      (({ fmt with base := .hex, width := 2, fill := 48 } : Format).digits b.toNat) =
    octetOn fmt b := by
  rw [numberOn_eq]
  rfl

theorem octetsOn_congr {a b : Format} (h1 : a.uppercase = b.uppercase) (h2 : a.showbase = b.showbase)
    (h3 : a.left = b.left) (nl : Bytes) (i : Nat) (bs : Bytes) : octetsOn nl a i bs = octetsOn nl b i bs := by
  have h : ∀ x, octetOn a x = octetOn b x := by
    intro x
    unfold octetOn numberOn
    simp only [h1, h2, h3]
  induction bs generalizing i with
  | nil => rfl
  | cons x bs ih => simp only [octetsOn, h, ih]

theorem texts_on {l : List Out} (h : Texts l) : ∀ s : OStream, s.fmt.width = 0 →
    s.puts l = ⟨s.out ++ chars l, s.fmt⟩ := by
  induction l with
  | nil => intro s _; simp [puts_nil, chars]
  | cons x l ih =>
      intro s hw
      obtain ⟨t, rfl⟩ := h x (by simp)
      rw [puts_cons, ih (fun y hy => h y (by simp [hy])) _ rfl]
      simp [OStream.put, pad_zero _ hw, chars, ← hw]

theorem octetOuts_text {m : List Out} (hm : Texts m) (bs e : Bytes) : ∀ (i : Nat) (s : OStream),
    s.fmt.width = 0 →
    (s.puts (octetOuts m i bs ++ [text e])).out = s.out ++ (octetsOn (chars m) s.fmt i bs ++ e) := by
  induction bs with
  | nil =>
      intro i s hw
      simp [octetOuts, octetsOn, puts_cons, puts_nil, OStream.put, pad_zero _ hw]
  | cons b bs ih =>
      intro i s hw
      have hc : Texts (if (i + 1) % 8 = 0 then m else [text (bstr " ")]) := by
        split
        · exact hm
        · simp [Texts]
      have hd : chars (if (i + 1) % 8 = 0 then m else [text (bstr " ")]) =
          if 8 ∣ i + 1 then chars m else ascii " " := by
        simp only [Nat.dvd_iff_mod_eq_zero]
        split <;> rfl
      unfold octetOuts octetsOn
      rw [List.append_assoc, List.append_assoc, puts_append, puts_append, texts_on hc _ rfl, hd,
        ih (i + 1) _ rfl, ← octetOn_eq,
        octetsOn_congr (a := (s.puts [hex, setw 2, setfill 48, number b.toNat]).fmt) (b := s.fmt)
          rfl rfl rfl]
      simp [OStream.put, OStream.puts]

theorem startOuts_cons (t : Bytes) (fh : FrameHeader) :
    startOuts t fh = text t :: (fh.outs ++ [text (bstr "[PAYLOAD]\n")]) := rfl

theorem start_on (f : Frame) (s : OStream) (hw : s.fmt.width = 0) :
    (s.puts (startOuts (title f ++ [10]) f.header)).out = s.out ++ startText f ∧
      (s.puts (startOuts (title f ++ [10]) f.header)).fmt = s.fmt := by
  have h0 : Segs false false (startOuts (title f ++ [10]) f.header) := .texts (texts_start _ _)
  have h1 : Describes ⟨[], false⟩ ⟨[], Format.initial⟩ := by constructor <;> rfl
  have h2 := (Runs.start (title f ++ [10]) f.header _ _ h1).out
  rw [start_eq f _ rfl] at h2
  have hx : hex ∉ startOuts (title f ++ [10]) f.header := by
    intro hc
    obtain ⟨t, ht⟩ := texts_start _ _ _ hc
    cases ht
  constructor
  · obtain ⟨u, e1, e2⟩ := segs_same h0 s ⟨[], Format.initial⟩ hw rfl
      (fun hc => by cases hc) (fun hc => by cases hc)
    rw [e2] at h2
    simp only [List.nil_append] at h2
    rw [e1, h2]
  · rw [segs_format h0 _ hw, if_neg hx, if_neg hx]

/-- C131, exactly what is printed for PING frames and frames of unknown types on a stream with any
formatting, but without a width: base, case, prefix and adjustment show as `octetOn` says. -/
theorem C131_octets_text [Platform] (s : OStream) (hw : s.fmt.width = 0) :
    (∀ f : PingFrame, printedOn (.ping f) s =
      .ok (startText (.ping f) ++ octetsOn (ascii "\n") s.fmt 0 f.opaqueData ++ [10])) ∧
    (∀ f : RawFrame, printedOn (.raw f) s =
      .ok (startText (.raw f) ++ octetsOn (ascii "\n") s.fmt 0 f.payload ++ [10])) := by
  constructor
  · intro f
    obtain ⟨a, b⟩ := start_on (.ping f) s hw
    have ht : bstr "=== PING_STREAM FRAME ===\n" = title (.ping f) ++ [10] := rfl
    change Res.ok _ = _
    unfold PingFrame.outs
    rw [ht, show f.header = (Frame.ping f).header from rfl, List.append_assoc, puts_append,
      octetOuts_text (by simp [Texts]) _ _ _ _ (by rw [b]; exact hw), a, b,
      show chars [text (bstr "\n")] = ascii "\n" from rfl]
    simp
    rfl
  · intro f
    obtain ⟨a, b⟩ := start_on (.raw f) s hw
    have ht : bstr "=== GENERIC FRAME (unimplemented) ===\n" = title (.raw f) ++ [10] := rfl
    change Res.ok _ = _
    unfold RawFrame.outs
    rw [ht, show f.header = (Frame.raw f).header from rfl, List.append_assoc, puts_append,
      octetOuts_text (by simp [Texts]) _ _ _ _ (by rw [b]; exact hw), a, b,
      show chars [text (bstr "\n")] = ascii "\n" from rfl]
    simp
    rfl

/-- Three octets on a left-adjusted stream, in upper case, with prefixes. -/
example : octetsOn (ascii "\n") ⟨.dec, true, true, true, 46, 0⟩ 0 [0, 171, 5] = bstr "00 0XAB 0X5 " ∧
    octetsOn (ascii "\n") ⟨.dec, false, false, true, 46, 0⟩ 0 [0, 171, 5] = bstr "00 ab 50 " := by
  simp only [octetsOn, ← octetOn_eq]
  decide +kernel

theorem setting_on {p : UInt16 × UInt32} {l : List Out} (h : settingOuts p = .ok l) (s : OStream)
    (hw : s.fmt.width = 0) :
    s.puts l = ⟨s.out ++ (ascii "  " ++ shownSetting p.1.toNat ++ ascii ": " ++
      numberOn s.fmt p.2.toNat ++ [10]), s.fmt⟩ := by
  have cancel : ∀ {x y : Bytes} {n : Nat},
      x ++ Stream.digits (if false = true then 16 else 10) n ++ bstr "\n" =
        [] ++ (y ++ numeral (if false = true then 16 else 10) n ++ [10]) → x = y := by
    intro x y n hxy
    rw [digits_eq _ _ (by simp) (by simp)] at hxy
    exact List.append_cancel_right (List.append_cancel_right hxy)
  have key : ∃ m, l = m ++ [number p.2.toNat, text (bstr "\n")] ∧ Texts m ∧
      chars m = ascii "  " ++ shownSetting p.1.toNat ++ ascii ": " := by
    have h2 : ∀ s', dumpSetting p ⟨[], false⟩ = .ok s' → _ := fun s' e => (setting_shown e).2
    unfold settingOuts at h
    unfold dumpSetting at h2
    split at h
    · rename_i hc
      rw [if_pos hc] at h2
      obtain ⟨n, h3, h⟩ := Res.bind_eq_ok.1 h
      cases h
      rw [h3] at h2
      refine ⟨[text (bstr "  "), text n, text (bstr "("), text (Stream.toString p.1.toNat),
        text (bstr "): ")], rfl, by simp [Texts], ?_⟩
      have := cancel (h2 _ rfl)
      simpa [chars, Stream.text] using this
    · rename_i hc
      rw [if_neg hc] at h2
      obtain ⟨n, h3, h⟩ := Res.bind_eq_ok.1 h
      cases h
      rw [h3] at h2
      refine ⟨[text (bstr "  "), text n, text (bstr ": ")], rfl, by simp [Texts], ?_⟩
      have := cancel (h2 _ rfl)
      simpa [chars, Stream.text] using this
  obtain ⟨m, rfl, hm, hc⟩ := key
  rw [puts_append, texts_on hm s hw, hc]
  simp only [puts_cons, puts_nil, OStream.put, pad_zero _ hw, numberOn_eq]
  simp [pad_zero _ hw, ← hw]
  rfl

theorem settings_on {ps : SfPayload} : ∀ {l : List Out}, settingsOuts ps = .ok l → ∀ s : OStream,
    s.fmt.width = 0 →
    (s.puts l).out = s.out ++ unlines (ps.map fun p =>
      ascii "  " ++ shownSetting p.1.toNat ++ ascii ": " ++ numberOn s.fmt p.2.toNat) := by
  induction ps with
  | nil => intro l h s _; cases h; simp [puts_nil, unlines]
  | cons p ps ih =>
      intro l h s hw
      unfold settingsOuts at h
      obtain ⟨a, h1, h⟩ := Res.bind_eq_ok.1 h
      obtain ⟨b, h2, h⟩ := Res.bind_eq_ok.1 h
      cases h
      rw [puts_append, setting_on h1 s hw]
      refine (ih h2 (OStream.mk (_ ++ _) s.fmt) hw).trans ?_
      simp [unlines]

theorem settingsOuts_ok (ps : SfPayload) : ∃ l, settingsOuts ps = .ok l := by
  induction ps with
  | nil => exact ⟨[], rfl⟩
  | cons p ps ih =>
      obtain ⟨l, h⟩ := ih
      have : ∃ a, settingOuts p = .ok a := by
        unfold settingOuts
        split
        · exact ⟨_, rfl⟩
        · rename_i hc
          have hk : ∀ k, ¬ (k < 1 ∨ k ≥ 7) → ∃ v, mapAt sfParameterStrMap k = .ok v := by
            intro k hk
            have h1 : 1 ≤ k := by omega
            have h2 : k < 7 := by omega
            interval_cases k <;> exact ⟨_, rfl⟩
          obtain ⟨v, hv⟩ := hk _ hc
          rw [hv]
          exact ⟨_, rfl⟩
      obtain ⟨a, ha⟩ := this
      unfold settingsOuts
      rw [ha, h]
      exact ⟨_, rfl⟩

/-- C131, exactly what is printed for a SETTINGS frame on a stream with any formatting, but without a
width: base, case and prefix show in the values, in nothing else. -/
theorem C131_settings_text [Platform] (f : SettingsFrame) (s : OStream) (hw : s.fmt.width = 0) :
    printedOn (.settings f) s = .ok (startText (.settings f) ++ unlines (f.payload.map fun p =>
      ascii "  " ++ shownSetting p.1.toNat ++ ascii ": " ++ numberOn s.fmt p.2.toNat)) := by
  obtain ⟨l, hl⟩ := settingsOuts_ok f.payload
  obtain ⟨a, b⟩ := start_on (.settings f) s hw
  have ht : bstr "=== SETTINGS FRAME ===\n" = title (.settings f) ++ [10] := rfl
  unfold printedOn Frame.print
  have h1 : (Frame.settings f).outs =
      .ok (startOuts (title (.settings f) ++ [10]) (Frame.settings f).header ++ l) := by
    change f.outs = _
    unfold SettingsFrame.outs
    rw [hl, ht]
    rfl
  rw [h1]
  simp only [Res.ok_bind, Res.pure_eq, puts_append]
  rw [settings_on hl _ (by rw [b]; exact hw), a, b]
  simp

attribute [local instance] x86 in
/-- SETTINGS in octal with prefixes. -/
example : ∃ before, printedOn (.settings ⟨⟨6, 4, 0, 0, 0⟩, [(4, 65535), (9, 0)]⟩)
    ⟨[], .oct, false, true, false, 46, 0⟩ =
      .ok (before ++ bstr "INITIAL_WINDOW_SIZE: 0177777\n  UNKNOWN(9): 0\n") :=
  ⟨startText (.settings ⟨⟨6, 4, 0, 0, 0⟩, [(4, 65535), (9, 0)]⟩) ++ bstr "  SETTINGS_",
    by decide +kernel⟩

theorem texts_table : ∀ (hs : List Header) (i : Nat), Texts (tableEntryOuts i hs) ∧
    ∀ s : Stream, dumpTableEntries i hs s = s.text (chars (tableEntryOuts i hs)) := by
  intro hs
  induction hs with
  | nil => intro i; exact ⟨by simp [Texts, tableEntryOuts], fun s => (text_nil s).symm⟩
  | cons h hs ih =>
      intro i
      obtain ⟨h1, h2⟩ := ih (i + 1)
      constructor
      · intro x hx
        unfold tableEntryOuts at hx
        rcases List.mem_append.1 hx with hx | hx
        · revert hx
          simp only [List.mem_cons, List.not_mem_nil, or_false]
          rintro (rfl | rfl | rfl | rfl | rfl | rfl | rfl) <;> exact ⟨_, rfl⟩
        · exact h1 x hx
      · intro s
        unfold dumpTableEntries tableEntryOuts
        rw [h2, text_text]
        simp [chars]

/-- C131 and C130 for dynamic tables, which the library prints as well: on every stream, whatever its
formatting, the text is the listing of C77 with its title line padded to the width, and nothing of
the formatting changes but the width. -/
theorem C131_table_text (t : DynamicTable) (s : OStream) :
    ∃ rest, (∀ c : Stream, (t.dump c).out = c.out ++ (bstr "=== DYNAMIC_TABLE ===\n" ++ rest)) ∧
      (t.print s).out = s.out ++
        (let p := List.replicate (s.fmt.width - 22) s.fmt.fill
         if s.fmt.left then bstr "=== DYNAMIC_TABLE ===\n" ++ p ++ rest
         else p ++ bstr "=== DYNAMIC_TABLE ===\n" ++ rest) ∧
      (t.print s).fmt = { s.fmt with width := 0 } := by
  obtain ⟨h1, h2⟩ := texts_table t.entries 62
  refine ⟨chars (tableEntryOuts 62 t.entries), ?_, ?_, ?_⟩
  · intro c
    unfold DynamicTable.dump
    rw [h2]
    simp [Stream.text]
  · unfold DynamicTable.print
    rw [puts_cons, texts_on h1 _ rfl]
    have hl : (bstr "=== DYNAMIC_TABLE ===\n").length = 22 := by decide
    simp only [OStream.put, Format.pad, hl]
    split <;> simp
  · unfold DynamicTable.print
    rw [puts_cons, texts_on h1 _ rfl]
    rfl

/-- A table with one entry on a stream in hexadecimal, left-adjusted, after `std::setw(24)`. -/
example : ((⟨[(bstr "a", bstr "b")], 34, 4096⟩ : DynamicTable).print
    ⟨[], .hex, true, true, true, 46, 24⟩).out =
      bstr "=== DYNAMIC_TABLE ===\n..[62] -> a: b\n" := by decide +kernel

/-- C131 is false of the code: on a stream with `std::showbase` the octets of a PING frame get a
prefix, except those that are zero. -/
theorem C131_showbase_violated [P : Platform] :
    ∃ ping before, buildFrame ⟨8, 6, 0, 0, 0⟩ [0, 0, 0, 0, 0, 0, 0, 1] .default = .ok ping ∧
      printedOn ping ⟨[], { Format.initial with showbase := true }⟩ =
        .ok (before ++ bstr "00 00 00 00 00 00 00 0x1\n\n") ∧
      printedOn ping ⟨[], Format.initial⟩ = .ok (before ++ bstr "00 00 00 00 00 00 00 01\n\n") := by
  refine ⟨.ping ⟨⟨8, 6, 0, 0, 0⟩, [0, 0, 0, 0, 0, 0, 0, 1]⟩,
    startText (.ping ⟨⟨8, 6, 0, 0, 0⟩, [0, 0, 0, 0, 0, 0, 0, 1]⟩), ?_, ?_, ?_⟩ <;>
  rcases P with ⟨_ | _, _ | _⟩ <;> decide +kernel

/-- C131 is false of the code: on a stream with `std::left` the octet 1 of a PING frame comes out as
`10`. -/
theorem C131_left_violated [P : Platform] :
    ∃ ping before, buildFrame ⟨8, 6, 0, 0, 0⟩ [0, 0, 0, 0, 0, 0, 0, 1] .default = .ok ping ∧
      printedOn ping ⟨[], { Format.initial with left := true }⟩ =
        .ok (before ++ bstr "00 00 00 00 00 00 00 10\n\n") ∧
      printedOn ping ⟨[], Format.initial⟩ = .ok (before ++ bstr "00 00 00 00 00 00 00 01\n\n") := by
  refine ⟨.ping ⟨⟨8, 6, 0, 0, 0⟩, [0, 0, 0, 0, 0, 0, 0, 1]⟩,
    startText (.ping ⟨⟨8, 6, 0, 0, 0⟩, [0, 0, 0, 0, 0, 0, 0, 1]⟩), ?_, ?_, ?_⟩ <;>
  rcases P with ⟨_ | _, _ | _⟩ <;> decide +kernel

/-! ## C132 -/

/-- Reading an octet back: base prefix and case do not count. -/
def readOctet (t : Bytes) : Nat :=
  t.foldl (fun a c => if c = 120 ∨ c = 88 then a else
    a * 16 + (if c < 65 then c.toNat - 48 else if c < 97 then c.toNat - 55 else c.toNat - 87)) 0

theorem octetOn_read (fmt : Format) (hl : fmt.left = false) (b : UInt8) :
    readOctet (octetOn fmt b) = b.toNat ∧ 10 ∉ octetOn fmt b ∧ 32 ∉ octetOn fmt b ∧
      octetOn fmt b ≠ [] := by
  obtain ⟨base, up, sb, l, f, w⟩ := fmt
  subst hl
  rw [← octetOn_eq]
  have key : ∀ up sb : Bool, (fun t : Bytes => readOctet t = b.toNat ∧ 10 ∉ t ∧ 32 ∉ t ∧ t ≠ [])
      ((⟨.hex, up, sb, false, 48, 2⟩ : Format).pad
        ((⟨.hex, up, sb, false, 48, 2⟩ : Format).digits b.toNat)) :=
    fun up sb => of_decide_eq_true <| u8_all (p := fun b => decide
      ((fun t : Bytes => readOctet t = b.toNat ∧ 10 ∉ t ∧ 32 ∉ t ∧ t ≠ [])
        ((⟨.hex, up, sb, false, 48, 2⟩ : Format).pad
          ((⟨.hex, up, sb, false, 48, 2⟩ : Format).digits b.toNat))))
      (by rcases up with _ | _ <;> rcases sb with _ | _ <;> decide +kernel) b
  exact key up sb

theorem octetsOn_inj {r : Bytes} {fmt : Format} (hl : fmt.left = false) {i : Nat} {as bs : Bytes}
    (h : octetsOn (10 :: r) fmt i as ++ [10] = octetsOn (10 :: r) fmt i bs ++ [10]) : as = bs := by
  have absurdNil : ∀ (b : UInt8) (x : Bytes), octetOn fmt b ++ x ≠ [10] := by
    intro b x hx
    obtain ⟨-, h10, -, hne⟩ := octetOn_read fmt hl b
    cases e : octetOn fmt b with
    | nil => exact hne e
    | cons c t =>
        rw [e] at hx
        have := (List.cons.inj hx).1
        exact h10 (by rw [e, this]; simp)
  induction as generalizing i bs with
  | nil => cases bs with
    | nil => rfl
    | cons b bs =>
        simp only [octetsOn, List.append_assoc, List.nil_append] at h
        exact absurd h.symm (absurdNil b _)
  | cons a as ih => cases bs with
    | nil =>
        simp only [octetsOn, List.append_assoc, List.nil_append] at h
        exact absurd h (absurdNil a _)
    | cons b bs =>
        simp only [octetsOn, List.append_assoc] at h
        have ha := octetOn_read fmt hl a
        have hb := octetOn_read fmt hl b
        obtain ⟨h1, h2⟩ : octetOn fmt a = octetOn fmt b ∧
            octetsOn (10 :: r) fmt (i + 1) as ++ [10] = octetsOn (10 :: r) fmt (i + 1) bs ++ [10] := by
          split at h
          · obtain ⟨h1, h2⟩ := line_inj 10 ha.2.1 hb.2.1 h
            exact ⟨h1, List.append_cancel_left h2⟩
          · exact line_inj 32 ha.2.2.1 hb.2.2.1 h
        have : a = b := UInt8.toNat_inj.1 (by rw [← ha.1, ← hb.1, h1])
        rw [this, ih h2]

/-- On a stream that is not left-adjusted a width only puts the same fill before both texts. -/
theorem same_without_width [Platform] {f g : Frame} (ht : title f = title g) {s : OStream}
    (hl : s.fmt.left = false) {a b t : Bytes}
    (ha : printedOn f { s with fmt := { s.fmt with width := 0 } } = .ok a)
    (hb : printedOn g { s with fmt := { s.fmt with width := 0 } } = .ok b)
    (h1 : printedOn f s = .ok t) (h2 : printedOn g s = .ok t) : a = b := by
  obtain ⟨r1, e1, i1⟩ := C131_width_partial f s a ha
  obtain ⟨r2, e2, i2⟩ := C131_width_partial g s b hb
  rw [h1] at i1
  rw [h2] at i2
  rw [i1] at i2
  have i3 := Res.ok.inj i2
  simp only [hl, ht, Bool.false_eq_true, if_false, List.append_assoc] at i3
  have i4 := List.append_cancel_left i3
  rw [e1, e2, ht]
  simpa using i4

/-- C132, the part that holds: on every stream that is not left-adjusted, whatever else its
formatting, two PING frames, or two frames of unknown types, that print the same text are the same
frame. Missing: left-adjusted streams, see `C132_left_violated`. -/
theorem C132_octets_partial [Platform] (s : OStream) (hl : s.fmt.left = false) (t : Bytes) :
    (∀ f g : PingFrame, printedOn (.ping f) s = .ok t → printedOn (.ping g) s = .ok t → f = g) ∧
    (∀ f g : RawFrame, printedOn (.raw f) s = .ok t → printedOn (.raw g) s = .ok t → f = g) := by
  obtain ⟨p1, p2⟩ := C131_octets_text { s with fmt := { s.fmt with width := 0 } } rfl
  constructor
  · intro f g h1 h2
    have h := same_without_width (f := .ping f) (g := .ping g) rfl hl (p1 f) (p1 g) h1 h2
    simp only [List.append_assoc] at h
    obtain ⟨-, a, b'⟩ := start_inj h
    have b := octetsOn_inj (fmt := { s.fmt with width := 0 }) hl b'
    clear b' h h1 h2
    cases f; cases g
    simp only [Frame.header] at a b
    subst a b
    rfl
  · intro f g h1 h2
    have h := same_without_width (f := .raw f) (g := .raw g) rfl hl (p2 f) (p2 g) h1 h2
    simp only [List.append_assoc] at h
    obtain ⟨-, a, b'⟩ := start_inj h
    have b := octetsOn_inj (fmt := { s.fmt with width := 0 }) hl b'
    clear b' h h1 h2
    cases f; cases g
    simp only [Frame.header] at a b
    subst a b
    rfl

attribute [local instance] x86 in
/-- Upper case, with prefixes, after `std::setw(40)`. -/
example : ∃ before,
    printedOn (.raw ⟨⟨3, 255, 0, 0, 1⟩, [0, 171, 5]⟩) ⟨[], .dec, true, true, false, 46, 40⟩ =
      .ok (before ++ bstr "00 0XAB 0X5 \n") :=
  ⟨bstr ".." ++ startText (.raw ⟨⟨3, 255, 0, 0, 1⟩, [0, 171, 5]⟩), by decide +kernel⟩

/-- C132 is false of the code: on a stream with `std::left` two received PING frames with different
data print the same text. -/
theorem C132_left_violated [P : Platform] :
    ∃ f g t, buildFrame ⟨8, 6, 0, 0, 0⟩ [0, 0, 0, 0, 0, 0, 0, 1] .default = .ok f ∧
      buildFrame ⟨8, 6, 0, 0, 0⟩ [0, 0, 0, 0, 0, 0, 0, 16] .default = .ok g ∧ f ≠ g ∧
      printedOn f ⟨[], { Format.initial with left := true }⟩ = .ok t ∧
      printedOn g ⟨[], { Format.initial with left := true }⟩ = .ok t := by
  refine ⟨.ping ⟨⟨8, 6, 0, 0, 0⟩, [0, 0, 0, 0, 0, 0, 0, 1]⟩,
    .ping ⟨⟨8, 6, 0, 0, 0⟩, [0, 0, 0, 0, 0, 0, 0, 16]⟩, _, ?_, ?_, by simp, rfl, ?_⟩ <;>
  rcases P with ⟨_ | _, _ | _⟩ <;> decide +kernel

end Mh2c
