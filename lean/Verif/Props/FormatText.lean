/-
C131 and C132: the whole text of frames on streams with any formatting, and what can be read off it.
-/
import Verif.Props.Format

namespace Mh2c

open Rfc Out

theorem octetOn_plain {fmt : Format} (h1 : fmt.uppercase = false) (h2 : fmt.showbase = false)
    (h3 : fmt.left = false) (b : UInt8) : octetOn fmt b = octet b := by
  obtain ⟨base, up, sb, l, f, w⟩ := fmt
  simp only at h1 h2 h3
  subst h1 h2 h3
  rw [← octetOn_eq]
  exact of_decide_eq_true <| u8_all (p := fun b => decide
    ((⟨.hex, false, false, false, 48, 2⟩ : Format).pad
      ((⟨.hex, false, false, false, 48, 2⟩ : Format).digits b.toNat) = octet b))
    (by decide +kernel) b

theorem octetsOn_plain {fmt : Format} (h1 : fmt.uppercase = false) (h2 : fmt.showbase = false)
    (h3 : fmt.left = false) (nl : Bytes) (bs : Bytes) :
    ∀ i, octetsOn nl fmt i bs = octetsFrom nl i bs := by
  induction bs with
  | nil => intro i; rfl
  | cons b bs ih => intro i; simp only [octetsOn, octetsFrom, ih, octetOn_plain h1 h2 h3]

/-- On a fresh stream both models print the same text. -/
theorem printed_agree [Platform] (f : Frame) :
    printedOn f ⟨[], Format.initial⟩ = printedText f ⟨[], false⟩ := by
  have h := C131_models_agree f ⟨[], false⟩ ⟨[], Format.initial⟩ (by constructor <;> rfl)
  unfold printedOn printedText
  cases h1 : f.print ⟨[], Format.initial⟩ <;> cases h2 : f.dump ⟨[], false⟩ <;>
    rw [h1, h2] at h
  case ok.ok o s =>
    have h3 : Describes s o := h
    simp only [Res.ok_bind, Res.pure_eq, h3.out]
  all_goals simp only [SameOutcome] at h
  all_goals first | rfl | (subst h; rfl)

theorem octets_split [Platform] {f : Frame} {A m : List Out} {bs e : Bytes}
    (h : f.outs = .ok (A ++ (octetOuts m 0 bs ++ [text e]))) (hA : Texts A) (hm : Texts m) :
    (∀ s : OStream, s.fmt.width = 0 →
      printedOn f s = .ok (chars A ++ (octetsOn (chars m) s.fmt 0 bs ++ e))) ∧
    printedText f ⟨[], false⟩ = .ok (chars A ++ (octetsFrom (chars m) 0 bs ++ e)) := by
  have key : ∀ s : OStream, s.fmt.width = 0 →
      printedOn f s = .ok (chars A ++ (octetsOn (chars m) s.fmt 0 bs ++ e)) := by
    intro s hw
    unfold printedOn Frame.print
    rw [h]
    simp only [Res.ok_bind, Res.pure_eq]
    rw [puts_append s A, texts_on hA s hw, octetOuts_text hm bs e 0 ⟨s.out ++ chars A, s.fmt⟩ hw]
    simp
  refine ⟨key, ?_⟩
  rw [← printed_agree, key _ rfl, octetsOn_plain rfl rfl rfl]

theorem text_fresh [Platform] {f : Frame} {t : Bytes} (h : printedText f ⟨[], false⟩ = .ok t)
    (hd : ∀ g, f ≠ .data g) (hg : ∀ g, f ≠ .goaway g) (hm : NoMisprint f) :
    t = startText f ++ payloadText 10 f := by
  refine printed_out h fun s' h' => ?_
  rw [C74_text f _ s' h' hd hg hm]
  simp

/-- A frame that prints no octets and no settings prints the same on every stream without a width. -/
theorem same_as_fresh [Platform] {f : Frame} (s : OStream) (hw : s.fmt.width = 0)
    (hd : ∀ g, f = .data g → g = DataFrame.new g.header.flags g.header.streamId g.payload ∧
      g.payload.length < 2 ^ 24)
    (ho : ¬ PrintsOctets f) (hn : ¬ HasSettings f) :
    printedOn f s = printedText f ⟨[], false⟩ := by
  rw [← printed_agree]
  exact C131_independent_partial f s _ hd hw rfl (fun h => absurd h ho) (fun h => absurd h hn)

theorem padding_split [Platform] {f : Frame} {B : List Out} {flags : UInt8} {p x : Bytes}
    (h : f.outs = .ok (B ++ paddingOuts flags p)) (hB : Texts B)
    (hx : ∀ t, printedText f ⟨[], false⟩ = .ok t → t = x ++ paddingText flags p) (s : OStream)
    (hw : s.fmt.width = 0) : printedOn f s = .ok (x ++ paddingOn s.fmt flags p) := by
  unfold paddingOuts at h
  unfold paddingText at hx
  unfold paddingOn
  rw [padded_ite] at h
  by_cases hp : hasPadded flags
  · rw [if_pos hp] at h hx ⊢
    have h' : f.outs = .ok ((B ++ [text (bstr "  Padding:\n"), text (bstr "    ")]) ++
        (octetOuts [text (bstr "\n"), text (bstr "    ")] 0 p ++ [text (bstr "\n")])) := by
      rw [h]; simp
    have hA : Texts (B ++ [text (bstr "  Padding:\n"), text (bstr "    ")]) := by
      intro y hy
      rcases List.mem_append.1 hy with hy | hy
      · exact hB y hy
      · revert hy
        simp only [List.mem_cons, List.not_mem_nil, or_false]
        rintro (rfl | rfl) <;> exact ⟨_, rfl⟩
    obtain ⟨k1, k2⟩ := octets_split h' hA (by simp [Texts])
    have k3 := hx _ k2
    have hc : chars [text (bstr "\n"), text (bstr "    ")] = ascii "\n    " := rfl
    rw [hc] at k3
    rw [k1 s hw, hc]
    have k4 : chars (B ++ [text (bstr "  Padding:\n"), text (bstr "    ")]) =
        x ++ (ascii "  Padding:\n" ++ ascii "    ") := by
      have k5 : (chars (B ++ [text (bstr "  Padding:\n"), text (bstr "    ")])) ++
          (octetsFrom (ascii "\n    ") 0 p ++ bstr "\n") =
          (x ++ (ascii "  Padding:\n" ++ ascii "    ")) ++
          (octetsFrom (ascii "\n    ") 0 p ++ bstr "\n") := by
        rw [k3]
        simp only [List.append_assoc]
        rfl
      exact List.append_cancel_right k5
    rw [k4]
    simp only [List.append_assoc]
    rfl
  · rw [if_neg hp] at h hx ⊢
    have hA : Texts (B ++ [text (bstr "  Padding:\n")]) := by
      intro y hy
      rcases List.mem_append.1 hy with hy | hy
      · exact hB y hy
      · exact ⟨_, List.mem_singleton.1 hy⟩
    have key : ∀ s : OStream, s.fmt.width = 0 →
        printedOn f s = .ok (chars (B ++ [text (bstr "  Padding:\n")])) := by
      intro s hw
      unfold printedOn Frame.print
      rw [h]
      simp only [Res.ok_bind, Res.pure_eq]
      rw [texts_on hA s hw]
      simp
    have k := key ⟨[], Format.initial⟩ rfl
    rw [printed_agree] at k
    rw [key s hw, hx _ k]

theorem headers_outs [Platform] {f : HeadersFrame} {s : OStream} {t : Bytes}
    (h : printedOn (.headers f) s = .ok t) :
    ∃ B, Texts B ∧ (Frame.headers f).outs = .ok (B ++ paddingOuts f.header.flags f.padding) := by
  obtain ⟨s', h1, -⟩ := Res.bind_eq_ok.1 h
  obtain ⟨l, h2, -⟩ := print_eq_ok h1
  obtain ⟨b, hb, h3⟩ := Res.bind_eq_ok.1 (show f.outs = .ok l from h2)
  rw [h2, ← h3]
  refine ⟨_, ?_, rfl⟩
  intro x hx
  rcases List.mem_append.1 hx with hx | hx
  · rcases List.mem_append.1 hx with hx | hx
    · exact texts_start _ _ x hx
    · revert hx
      simp only [List.mem_cons, List.not_mem_nil, or_false]
      rintro (rfl | rfl | rfl | rfl | rfl | rfl | rfl | rfl | rfl | rfl) <;> exact ⟨_, rfl⟩
  · exact texts_block hb x hx

theorem push_outs [Platform] {f : PushPromiseFrame} {s : OStream} {t : Bytes}
    (h : printedOn (.pushPromise f) s = .ok t) :
    ∃ B, Texts B ∧
      (Frame.pushPromise f).outs = .ok (B ++ paddingOuts f.header.flags f.payload.padding) := by
  obtain ⟨s', h1, -⟩ := Res.bind_eq_ok.1 h
  obtain ⟨l, h2, -⟩ := print_eq_ok h1
  obtain ⟨b, hb, h3⟩ := Res.bind_eq_ok.1 (show f.outs = .ok l from h2)
  rw [h2, ← h3]
  refine ⟨_, ?_, rfl⟩
  intro x hx
  rcases List.mem_append.1 hx with hx | hx
  · rcases List.mem_append.1 hx with hx | hx
    · exact texts_start _ _ x hx
    · revert hx
      simp only [List.mem_cons, List.not_mem_nil, or_false]
      rintro (rfl | rfl | rfl | rfl | rfl | rfl | rfl) <;> exact ⟨_, rfl⟩
  · exact texts_block hb x hx

/-- C131, exactly what is printed for a frame of any class but DATA and GOAWAY on a stream with any
formatting, but without a width: the layout of C74, with octets and settings values written as the
stream's base, case, prefix and adjustment say, and nothing else changed. -/
theorem C131_text [Platform] (f : Frame) (s : OStream) (t : Bytes) (hw : s.fmt.width = 0)
    (h : printedOn f s = .ok t) (hd : ∀ g, f ≠ .data g) (hg : ∀ g, f ≠ .goaway g)
    (hm : NoMisprint f) : t = startText f ++ payloadOn s.fmt f := by
  have quiet : ¬ PrintsOctets f → ¬ HasSettings f → t = startText f ++ payloadText 10 f := by
    intro h1 h2
    rw [same_as_fresh s hw (fun g hc => absurd hc (hd g)) h1 h2] at h
    exact text_fresh h hd hg hm
  cases f with
  | data f => exact absurd rfl (hd f)
  | goaway f => exact absurd rfl (hg f)
  | headers f =>
      obtain ⟨B, hB, ho⟩ := headers_outs h
      have k := padding_split ho hB (x := startText (.headers f) ++ unlines ([
        ascii "  Exclusive: " ++ showsPriority f.header.flags f.priority.exclusive.toNat,
        ascii "  Stream Dependency: " ++
          showsPriority f.header.flags f.priority.streamDependency.toNat,
        ascii "  Weight: " ++ showsPriority f.header.flags f.priority.weight.toNat,
        ascii "  Header Block:"] ++ f.headerBlock.map entryLine)) (fun t ht => by
          rw [text_fresh ht hd hg hm, List.append_assoc]; rfl) s hw
      rw [h] at k
      rw [Res.ok.inj k, List.append_assoc]
      rfl
  | pushPromise f =>
      obtain ⟨B, hB, ho⟩ := push_outs h
      have k := padding_split ho hB (x := startText (.pushPromise f) ++ unlines ([
        ascii "  R: " ++ decimal f.payload.reserved.toNat,
        ascii "  Promised Stream ID: " ++ decimal f.payload.promisedStreamId.toNat,
        ascii "  Header Block:"] ++ f.payload.headerBlock.map entryLine)) (fun t ht => by
          rw [text_fresh ht hd hg hm, List.append_assoc]; rfl) s hw
      rw [h] at k
      rw [Res.ok.inj k, List.append_assoc]
      rfl
  | settings f =>
      rw [C131_settings_text f s hw] at h
      rw [← Res.ok.inj h]
      unfold payloadOn
      congr 2
      refine List.map_congr_left fun p hp => ?_
      have h3 : p.1.toNat ≠ 3 := fun hc => hm p hp (UInt16.toNat_inj.1 hc)
      rw [shownSetting, if_neg h3]
  | ping f =>
      rw [(C131_octets_text s hw).1 f] at h
      rw [← Res.ok.inj h, List.append_assoc]
      rfl
  | raw f =>
      rw [(C131_octets_text s hw).2 f] at h
      rw [← Res.ok.inj h, List.append_assoc]
      rfl
  | priority f => exact quiet (fun h => h) (fun h => h)
  | rstStream f => exact quiet (fun h => h) (fun h => h)
  | windowUpdate f => exact quiet (fun h => h) (fun h => h)
  | continuation f => exact quiet (fun h => h) (fun h => h)

attribute [local instance] x86 in
/-- A padded HEADERS frame on a stream in upper case with prefixes. -/
example : ∃ before, printedOn (.headers ⟨[], ⟨6, 1, 12, 0, 1⟩, [0, 171], .zero,
      [⟨.withoutIndexing, .header (bstr "host", bstr "h")⟩]⟩) ⟨[], .oct, true, true, false, 46, 0⟩ =
    .ok (before ++ bstr "    host: h\n  Padding:\n    00 0XAB \n") :=
  ⟨startText (.headers ⟨[], ⟨6, 1, 12, 0, 1⟩, [], .zero, []⟩) ++
    bstr "  Exclusive: \n  Stream Dependency: \n  Weight: \n  Header Block:\n", by decide +kernel⟩

/-- What comes before the padding in the text of a DATA frame. -/
def dataPrefix (k : Nat) (d : Bytes) : Bytes :=
  unlines [ascii "  Pad Length: " ++ decimal k, ascii "  Data      : ",
    ascii "    " ++ indented d, ascii "  Padding   : "]

theorem dataPrefix_inj {k l : Nat} {d e x y : Bytes}
    (h : dataPrefix k d ++ x = dataPrefix l e ++ y) : k = l ∧ d = e ∧ x = y := by
  have e : ∀ k d x, dataPrefix k d ++ x = unlines [ascii "  Pad Length: " ++ decimal k,
      ascii "  Data      : "] ++ (ascii "    " ++ (indented d ++ ascii "\n  P" ++
        (ascii "adding   : \n" ++ x))) := by
    intro k d x
    simp only [dataPrefix, unlines, List.flatMap_cons, List.flatMap_nil, List.append_assoc]
    rfl
  rw [e, e] at h
  have hno : ∀ k : Nat, ∀ l ∈ [ascii "  Pad Length: " ++ decimal k, ascii "  Data      : "],
      10 ∉ l := by
    intro k l hl
    simp only [List.mem_cons, List.not_mem_nil, or_false] at hl
    rcases hl with rfl | rfl
    · exact label_no10 (by decide +kernel) _
    · decide +kernel
  obtain ⟨h1, h2⟩ := unlines_inj (hno k) (hno l) rfl h
  obtain ⟨h3, h4⟩ := indented_inj (List.append_cancel_left h2)
  exact ⟨label_inj (List.cons.inj h1).1, h3, List.append_cancel_left h4⟩

theorem data_outs [Platform] {f : DataFrame} {s : OStream} {t : Bytes}
    (h : printedOn (.data f) s = .ok t) : ∃ A k d p, Texts A ∧
      chars A = startText (.data f) ++ dataPrefix k d ∧
      (Frame.data f).outs =
        .ok (A ++ (octetOuts [text (bstr "\n              ")] 0 p ++ [text (bstr "\n")])) := by
  obtain ⟨s', h1, -⟩ := Res.bind_eq_ok.1 h
  obtain ⟨l, h2, -⟩ := print_eq_ok h1
  obtain ⟨⟨k, d, p⟩, hb, h3⟩ := Res.bind_eq_ok.1 (show f.outs = .ok l from h2)
  have ht : bstr "=== DATA FRAME ===\n" = title (.data f) ++ [10] := rfl
  obtain ⟨a, -⟩ := start_on (.data f) ⟨[], Format.initial⟩ rfl
  rw [texts_on (texts_start _ _) _ rfl] at a
  simp only [List.nil_append] at a
  have app : ∀ {x y : List Out}, Texts x → chars (x ++ y) = chars x ++ chars y := by
    intro x y hx
    induction x with
    | nil => rfl
    | cons z x ih =>
        obtain ⟨t, rfl⟩ := hx z (by simp)
        simp only [List.cons_append, chars, List.append_assoc]
        rw [ih (fun y hy => hx y (by simp [hy]))]
  obtain ⟨d1, d2⟩ := data_chars d
  have ta : ∀ {x y : List Out}, Texts x → Texts y → Texts (x ++ y) := by
    intro x y hx hy z hz
    rcases List.mem_append.1 hz with hz | hz
    · exact hx z hz
    · exact hy z hz
  have t1 : Texts (startOuts (bstr "=== DATA FRAME ===\n") f.header) := texts_start _ _
  have t2 : Texts [text (bstr "  Pad Length: "), text (Stream.toString k.toNat), text (bstr "\n"),
      text (bstr "  Data      : \n"), text (bstr "    ")] := by simp [Texts]
  have t3 : Texts [text (bstr "\n"), text (bstr "  Padding   : \n")] := by simp [Texts]
  refine ⟨startOuts (bstr "=== DATA FRAME ===\n") f.header ++
    [text (bstr "  Pad Length: "), text (Stream.toString k.toNat), text (bstr "\n"),
      text (bstr "  Data      : \n"), text (bstr "    ")] ++ dataOuts d ++
    [text (bstr "\n"), text (bstr "  Padding   : \n")], k.toNat, d, p,
    ta (ta (ta t1 t2) d1) t3, ?_, ?_⟩
  · rw [app (ta (ta t1 t2) d1), app (ta t1 t2), app t1, d2, indent_eq]
    have a' : chars (startOuts (bstr "=== DATA FRAME ===\n") f.header) = startText (.data f) := by
      rw [ht]; exact a
    rw [a']
    simp only [chars, toString_eq, dataPrefix, unlines, List.flatMap_cons, List.flatMap_nil,
      List.append_assoc, List.append_nil]
    rfl
  · rw [h2, ← h3]
    simp only [Res.pure_eq, List.append_assoc]

/-- C131, exactly what is printed for a received DATA frame on a stream with any formatting, but
without a width: pad length and data as on every stream, the octets of the padding as the stream's
case, prefix and adjustment say. -/
theorem C131_data_text [Platform] (f : DataFrame) (s : OStream) (t : Bytes) (hw : s.fmt.width = 0)
    (hf : f = DataFrame.new f.header.flags f.header.streamId f.payload)
    (hl : f.payload.length < 2 ^ 24) (h : printedOn (.data f) s = .ok t) :
    ∃ data padding, f.payload = withPadding f.header.flags data padding ∧ padding.length ≤ 255 ∧
      (¬ hasPadded f.header.flags → padding = []) ∧
      t = startText (.data f) ++ dataOn s.fmt data padding := by
  obtain ⟨A, k, d, p, hA, hc, ho⟩ := data_outs h
  obtain ⟨k1, k2⟩ := octets_split ho hA (by simp [Texts])
  obtain ⟨data, padding, e1, e2, e3, e4⟩ := data_text ⟨hf, hl⟩ k2
  have hn : chars [text (bstr "\n              ")] = ascii "\n              " := rfl
  rw [hn] at e4 k1
  rw [hc, List.append_assoc] at e4
  have e5 : dataText data padding = dataPrefix padding.length data ++
      (octetsFrom (ascii "\n              ") 0 padding ++ [10]) := by
    simp only [dataText, dataPrefix, List.append_assoc]
    rfl
  rw [e5] at e4
  obtain ⟨i1, rfl, i3⟩ := dataPrefix_inj (List.append_cancel_left e4)
  have i4 := octets_inj i3
  subst i4
  refine ⟨d, p, e1, e2, e3, ?_⟩
  rw [k1 s hw] at h
  rw [← Res.ok.inj h, hc, i1]
  simp only [dataOn, dataPrefix, List.append_assoc]
  rfl

attribute [local instance] x86 in
/-- A padded DATA frame on a stream in upper case with prefixes. -/
example : ∃ before, printedOn (.data (DataFrame.new 8 1 [2, 104, 105, 0, 171]))
      ⟨[], .oct, true, true, false, 46, 0⟩ =
    .ok (before ++ bstr "  Pad Length: 2\n  Data      : \n    hi\n  Padding   : \n00 0XAB \n") :=
  ⟨startText (.data (DataFrame.new 8 1 [2, 104, 105, 0, 171])), by decide +kernel⟩

/-! ## Reading numbers and titles off the text -/

/-- Undoes `upperCase` on what is not in upper case itself. -/
def lowerCase (c : UInt8) : UInt8 := if 65 ≤ c.toNat ∧ c.toNat ≤ 90 then c + 32 else c

theorem lower_upper (c : UInt8) (h : ¬ (65 ≤ c.toNat ∧ c.toNat ≤ 90)) :
    lowerCase (upperCase c) = c := by
  have := of_decide_eq_true <| u8_all (p := fun c => decide
    (¬ (65 ≤ c.toNat ∧ c.toNat ≤ 90) → lowerCase (upperCase c) = c)) (by decide +kernel) c
  exact this h

theorem digit_lower (d : Nat) (h : d < 16) : ¬ (65 ≤ (digit d).toNat ∧ (digit d).toNat ≤ 90) := by
  have : (List.range 16).all (fun d => decide (¬ (65 ≤ (digit d).toNat ∧ (digit d).toNat ≤ 90))) =
    true := by decide +kernel
  exact of_decide_eq_true (List.all_eq_true.1 this d (List.mem_range.2 h))

/-- The radix of a base. -/
def radixOf : Base → Nat
  | .dec => 10
  | .oct => 8
  | .hex => 16

/-- The prefix of a base. -/
def prefixOf : Base → Bytes
  | .dec => []
  | .oct => ascii "0"
  | .hex => ascii "0x"

/-- What `numberOn` writes before upper case is applied. -/
def plainNumber (base : Base) (showbase : Bool) (n : Nat) : Bytes :=
  (if showbase = false ∨ n = 0 then [] else prefixOf base) ++ numeral (radixOf base) n

theorem numberOn_plain (fmt : Format) (n : Nat) : numberOn fmt n =
    if fmt.uppercase then (plainNumber fmt.base fmt.showbase n).map upperCase
    else plainNumber fmt.base fmt.showbase n := by
  unfold numberOn plainNumber prefixOf radixOf
  cases fmt.base <;> rfl

theorem numeral_mem_digit {b n : Nat} (hb : 2 ≤ b) (hb2 : b ≤ 16) {c : UInt8}
    (h : c ∈ numeral b n) : ∃ d < 16, c = digit d := by
  obtain ⟨ds, h1, h2, -⟩ := C74_numeral b n hb hb2
  rw [h1] at h
  obtain ⟨d, hd, rfl⟩ := List.mem_map.1 h
  exact ⟨d, by have := h2 d hd; omega, rfl⟩

theorem radix_le (base : Base) : 2 ≤ radixOf base ∧ radixOf base ≤ 16 := by
  cases base <;> decide

theorem plain_lower {base : Base} {sb : Bool} {n : Nat} {c : UInt8}
    (h : c ∈ plainNumber base sb n) : ¬ (65 ≤ c.toNat ∧ c.toNat ≤ 90) ∧ c ≠ 10 := by
  unfold plainNumber at h
  rcases List.mem_append.1 h with h | h
  · split at h
    · cases h
    · have : ∀ c ∈ prefixOf base, ¬ (65 ≤ c.toNat ∧ c.toNat ≤ 90) ∧ c ≠ 10 := by
        cases base <;> decide +kernel
      exact this c h
  · obtain ⟨d, hd, rfl⟩ := numeral_mem_digit (radix_le base).1 (radix_le base).2 h
    exact ⟨digit_lower d hd, (digit_ne d hd).1⟩

theorem plain_inj {base : Base} {sb : Bool} {m n : Nat}
    (h : plainNumber base sb m = plainNumber base sb n) : m = n := by
  have hne : ∀ k, numeral (radixOf base) k ≠ [] := by
    intro k hk
    obtain ⟨ds, h1, -, h2, -⟩ := C74_numeral _ k (radix_le base).1 (radix_le base).2
    rw [hk] at h1
    exact h2 (List.map_eq_nil_iff.1 h1.symm)
  have one : ∀ k, k ≠ 0 → plainNumber base sb 0 = plainNumber base sb k → False := by
    intro k hk hc
    have h0 : plainNumber base sb 0 = numeral (radixOf base) 0 := by
      simp [plainNumber]
    rw [h0] at hc
    unfold plainNumber at hc
    by_cases hs : sb = false
    · rw [if_pos (Or.inl hs)] at hc
      exact hk (numeral_inj (radix_le base).1 (radix_le base).2 hc).symm
    · rw [if_neg (by simp [hs, hk])] at hc
      cases base with
      | dec => exact hk (numeral_inj (radix_le .dec).1 (radix_le .dec).2 hc).symm
      | oct => exact hne k (List.cons.inj hc).2.symm
      | hex => cases (List.cons.inj hc).2
  by_cases hm : m = 0
  · subst hm
    by_contra hc
    exact one n (fun h => hc h.symm) h
  · by_cases hn : n = 0
    · subst hn
      exact (one m hm h.symm).elim
    · unfold plainNumber at h
      have hc : ∀ k, k ≠ 0 → (sb = false ∨ k = 0 ↔ sb = false) := by
        intro k hk; simp [hk]
      simp only [hc m hm, hc n hn] at h
      exact numeral_inj (radix_le base).1 (radix_le base).2 (List.append_cancel_left h)

theorem numberOn_no10 (fmt : Format) (n : Nat) : 10 ∉ numberOn fmt n := by
  rw [numberOn_plain]
  split
  · intro h
    obtain ⟨c, hc, he⟩ := List.mem_map.1 h
    have := of_decide_eq_true <| u8_all (p := fun c => decide (upperCase c = 10 → c = 10))
      (by decide +kernel) c
    exact (plain_lower hc).2 (this he)
  · exact fun h => (plain_lower h).2 rfl

/-- Numbers can be read back, whatever the base, case and prefix. -/
theorem numberOn_inj {fmt : Format} {m n : Nat} (h : numberOn fmt m = numberOn fmt n) : m = n := by
  rw [numberOn_plain, numberOn_plain] at h
  split at h
  · have low : ∀ k, ((plainNumber fmt.base fmt.showbase k).map upperCase).map lowerCase =
        plainNumber fmt.base fmt.showbase k := by
      intro k
      rw [List.map_map]
      conv => rhs; rw [← List.map_id (plainNumber fmt.base fmt.showbase k)]
      exact List.map_congr_left fun c hc => lower_upper c (plain_lower hc).1
    have := congrArg (List.map lowerCase) h
    rw [low, low] at this
    exact plain_inj this
  · exact plain_inj h

theorem settingsOn_inj {fmt : Format} {ps qs : SfPayload}
    (h : unlines (ps.map fun p => ascii "  " ++ shownSetting p.1.toNat ++ ascii ": " ++
        numberOn fmt p.2.toNat) =
      unlines (qs.map fun p => ascii "  " ++ shownSetting p.1.toNat ++ ascii ": " ++
        numberOn fmt p.2.toNat)) : ps = qs := by
  have hno : ∀ ps : SfPayload, ∀ l ∈ ps.map (fun p => ascii "  " ++ shownSetting p.1.toNat ++
      ascii ": " ++ numberOn fmt p.2.toNat), 10 ∉ l := by
    intro ps l hl
    obtain ⟨p, -, rfl⟩ := List.mem_map.1 hl
    simp only [List.mem_append]
    rintro (((h1 | h1) | h1) | h1)
    · exact absurd h1 (by decide +kernel)
    · exact (shownSetting_no _).1 h1
    · exact absurd h1 (by decide +kernel)
    · exact numberOn_no10 _ _ h1
  replace h := unlines_inj_end (hno ps) (hno qs) h
  clear hno
  induction ps generalizing qs with
  | nil => cases qs with
    | nil => rfl
    | cons => cases h
  | cons p ps ih => cases qs with
    | nil => cases h
    | cons q qs =>
        rw [List.map_cons, List.map_cons] at h
        obtain ⟨h1, h2⟩ := List.cons.inj h
        simp only [List.append_assoc] at h1
        have h1 := List.append_cancel_left h1
        obtain ⟨h3, h4⟩ := line_inj 58 (shownSetting_no _).2 (shownSetting_no _).2 h1
        have h5 := numberOn_inj (List.append_cancel_left (as := [32]) h4)
        have : p = q := Prod.ext (UInt16.toNat_inj.1 (shownSetting_inj h3)) (UInt32.toNat_inj.1 h5)
        rw [this, ih h2]

theorem title_start (f : Frame) : ∃ r, title f = 61 :: 61 :: 61 :: 32 :: r := by
  cases f <;> exact ⟨_, rfl⟩

/-- The fill before a title cannot be mistaken for a part of it. -/
theorem fill_inj {c : UInt8} {f g : Frame} : ∀ {k m : Nat} {x y : Bytes},
    List.replicate k c ++ (title f ++ x) = List.replicate m c ++ (title g ++ y) →
    title f ++ x = title g ++ y := by
  obtain ⟨rf, hf⟩ := title_start f
  obtain ⟨rg, hg⟩ := title_start g
  have one : ∀ (m : Nat) (x y r q : Bytes), 61 :: 61 :: 61 :: 32 :: r ++ x =
      List.replicate (m + 1) c ++ (61 :: 61 :: 61 :: 32 :: q ++ y) → False := by
    intro m x y r q h
    have hc : c = 61 := by
      rw [List.replicate_succ] at h
      exact (List.cons.inj h).1.symm
    subst hc
    have h3 := congrArg (fun l => l[3]?) h
    rcases m with _ | _ | _ | m <;> simp [List.replicate_succ] at h3
  intro k
  induction k with
  | zero =>
      intro m x y h
      cases m with
      | zero => exact h
      | succ m =>
          rw [hf, hg] at h
          exact (one m x y rf rg h).elim
  | succ k ih =>
      intro m x y h
      cases m with
      | zero =>
          rw [hf, hg] at h
          exact (one k y x rg rf h.symm).elim
      | succ m =>
          rw [List.replicate_succ, List.replicate_succ] at h
          exact ih (List.cons.inj h).2

/-- Two frames that print the same text on a stream have the same title and print the same text
without the width. -/
theorem drop_width [Platform] {f g : Frame} {s : OStream} {t : Bytes} (h1 : printedOn f s = .ok t)
    (h2 : printedOn g s = .ok t) : title f = title g ∧
      ∃ u, printedOn f { s with fmt := { s.fmt with width := 0 } } = .ok u ∧
        printedOn g { s with fmt := { s.fmt with width := 0 } } = .ok u := by
  have ok : ∀ {f : Frame}, printedOn f s = .ok t →
      ∃ u, printedOn f { s with fmt := { s.fmt with width := 0 } } = .ok u := by
    intro f h
    obtain ⟨s', h3, -⟩ := Res.bind_eq_ok.1 h
    obtain ⟨l, h4, -⟩ := print_eq_ok h3
    unfold printedOn Frame.print
    rw [h4]
    exact ⟨_, rfl⟩
  obtain ⟨u, hu⟩ := ok h1
  obtain ⟨v, hv⟩ := ok h2
  obtain ⟨r1, e1, i1⟩ := C131_width_partial f s u hu
  obtain ⟨r2, e2, i2⟩ := C131_width_partial g s v hv
  rw [h1] at i1
  rw [h2, i1] at i2
  have i3 := Res.ok.inj i2
  have line : title f ++ 10 :: r1 = title g ++ 10 :: r2 := by
    simp only at i3
    split at i3
    · simp only [List.append_assoc, List.cons_append, List.nil_append] at i3
      obtain ⟨a, b⟩ := line_inj 10 (title_no10 f) (title_no10 g) i3
      rw [a] at b ⊢
      rw [List.append_cancel_left b]
    · simp only [List.append_assoc, List.cons_append, List.nil_append] at i3
      exact fill_inj i3
  refine ⟨(line_inj 10 (title_no10 f) (title_no10 g) line).1, u, hu, ?_⟩
  rw [hv, e1, e2]
  simpa using line.symm

/-- C132, the part that holds: on every stream that is not left-adjusted, whatever else its
formatting, two frames shown in full that print the same text are the same frame; on left-adjusted
streams so are two that print no octets. Missing: frames that print octets on left-adjusted streams,
see `C132_left_violated`; frames with a header block and GOAWAY, which do not identify the frame on
any stream, see `C76_headers_violated`. -/
theorem C132_identifies_partial [Platform] (f g : Frame) (s : OStream) (t : Bytes)
    (hf : ShownInFull f) (hg : ShownInFull g)
    (hl : s.fmt.left = false ∨ (¬ PrintsOctets f ∧ ¬ PrintsOctets g))
    (h1 : printedOn f s = .ok t) (h2 : printedOn g s = .ok t) : f = g := by
  obtain ⟨ht, u, k1, k2⟩ := drop_width h1 h2
  have hc := title_class ht
  clear h1 h2
  generalize hs : ({ s with fmt := { s.fmt with width := 0 } } : OStream) = s0 at k1 k2
  have hw : s0.fmt.width = 0 := by rw [← hs]
  have hl0 : s0.fmt.left = s.fmt.left := by rw [← hs]
  rw [← hl0] at hl
  clear hl0 hs
  have recv : ∀ f, ShownInFull f → ∀ g, f = .data g →
      g = DataFrame.new g.header.flags g.header.streamId g.payload ∧ g.payload.length < 2 ^ 24 := by
    rintro f hf g rfl
    exact hf
  have quiet : ¬ PrintsOctets f → ¬ PrintsOctets g → ¬ HasSettings f → ¬ HasSettings g → f = g := by
    intro a b c d
    rw [same_as_fresh s0 hw (recv f hf) a c] at k1
    rw [same_as_fresh s0 hw (recv g hg) b d] at k2
    exact C76_identifies_partial f g _ u hf hg k1 k2
  cases f with
  | headers f => exact hf.elim
  | pushPromise f => exact hf.elim
  | continuation f => exact hf.elim
  | goaway f => exact hf.elim
  | data f => cases g with
    | data g =>
        rcases hl with hl | ⟨a, b⟩
        · obtain ⟨d1, p1, e1, e2, e3, e4⟩ := C131_data_text f s0 u hw hf.1 hf.2 k1
          obtain ⟨d2, p2, j1, j2, j3, j4⟩ := C131_data_text g s0 u hw hg.1 hg.2 k2
          obtain ⟨-, i2, k⟩ := start_inj (e4.symm.trans j4)
          have sh : ∀ d p, dataOn s0.fmt d p = dataPrefix p.length d ++
              (octetsOn (ascii "\n              ") s0.fmt 0 p ++ [10]) := by
            intro d p
            simp only [dataOn, dataPrefix, List.append_assoc]
            rfl
          rw [sh, sh] at k
          obtain ⟨-, rfl, k3⟩ := dataPrefix_inj k
          have k4 := octetsOn_inj hl k3
          subst k4
          change f.header = g.header at i2
          have : f.payload = g.payload := by rw [e1, j1, i2]
          rw [hf.1, hg.1, this, i2]
        · exact quiet a b (fun h => h) (fun h => h)
    | _ => cases hc
  | priority f => cases g with
    | priority g => exact quiet (fun h => h) (fun h => h) (fun h => h) (fun h => h)
    | _ => cases hc
  | rstStream f => cases g with
    | rstStream g => exact quiet (fun h => h) (fun h => h) (fun h => h) (fun h => h)
    | _ => cases hc
  | windowUpdate f => cases g with
    | windowUpdate g => exact quiet (fun h => h) (fun h => h) (fun h => h) (fun h => h)
    | _ => cases hc
  | settings f => cases g with
    | settings g =>
        rw [C131_settings_text f s0 hw] at k1
        rw [C131_settings_text g s0 hw, ← k1] at k2
        obtain ⟨-, i2, i3⟩ := start_inj (Res.ok.inj k2).symm
        have h := settingsOn_inj i3
        clear k1 k2 quiet
        obtain ⟨fh, fp⟩ := f
        obtain ⟨gh, gp⟩ := g
        simp only [Frame.header] at h i2
        subst h i2
        rfl
    | _ => cases hc
  | ping f => cases g with
    | ping g =>
        rcases hl with hl | ⟨a, b⟩
        · exact congrArg _ ((C132_octets_partial s0 hl u).1 f g k1 k2)
        · exact quiet a b (fun h => h) (fun h => h)
    | _ => cases hc
  | raw f => cases g with
    | raw g =>
        rcases hl with hl | ⟨a, b⟩
        · exact congrArg _ ((C132_octets_partial s0 hl u).2 f g k1 k2)
        · exact quiet a b (fun h => h) (fun h => h)
    | _ => cases hc

attribute [local instance] x86 in
/-- A padded DATA frame on a right-adjusted stream with prefixes and a width; SETTINGS on a
left-adjusted one in octal. -/
example : ShownInFull (.data (DataFrame.new 8 1 [2, 104, 105, 0, 171])) ∧
    (∃ t, printedOn (.data (DataFrame.new 8 1 [2, 104, 105, 0, 171]))
      ⟨[], .oct, true, true, false, 46, 50⟩ = .ok t) ∧
    ¬ PrintsOctets (.settings ⟨⟨6, 4, 0, 0, 0⟩, [(3, 100)]⟩) ∧
    ∃ t, printedOn (.settings ⟨⟨6, 4, 0, 0, 0⟩, [(3, 100)]⟩) ⟨[], .oct, true, true, true, 46, 50⟩ =
      .ok t :=
  ⟨⟨rfl, by decide⟩, ⟨_, by rfl⟩, fun h => h, ⟨_, by rfl⟩⟩

theorem paddingOn_ends (fmt : Format) (flags : UInt8) (p : Bytes) :
    EndsBlock (paddingOn fmt flags p) := by
  intro r h
  have := congrArg (List.take 3) h
  unfold paddingOn at this
  rw [List.take_append_of_le_length (by decide)] at this
  exact absurd (show List.take 3 (ascii "  Padding:\n") = [32, 32, 32] from this) (by decide)

theorem paddingOn_inj {fmt : Format} (hl : fmt.left = false) {flags : UInt8} {p q : Bytes}
    (hp : hasPadded flags) (h : paddingOn fmt flags p = paddingOn fmt flags q) : p = q := by
  unfold paddingOn at h
  rw [if_pos hp, if_pos hp] at h
  simp only [List.append_assoc] at h
  exact octetsOn_inj hl (List.append_cancel_left (List.append_cancel_left h))

/-- C132, HEADERS with a clean header block, on every stream, whatever its formatting: header,
priority fields (if flagged) and the header list can be read off the text, and on streams that are
not left-adjusted the padding (if flagged) too. Missing: padding on left-adjusted streams, see
`C132_left_violated`; other blocks, see `C76_headers_violated`. -/
theorem C132_headers_partial [Platform] (f g : HeadersFrame) (s : OStream) (t : Bytes)
    (hf : CleanBlock f.headerBlock) (hg : CleanBlock g.headerBlock)
    (h1 : printedOn (.headers f) s = .ok t) (h2 : printedOn (.headers g) s = .ok t) :
    f.header = g.header ∧ f.headerBlock.map (·.entry) = g.headerBlock.map (·.entry) ∧
      (f.header.flags.toNat.testBit 5 → f.priority = g.priority) ∧
      (s.fmt.left = false → hasPadded f.header.flags → f.padding = g.padding) := by
  obtain ⟨-, u, k1, k2⟩ := drop_width h1 h2
  clear h1 h2
  generalize hs : ({ s with fmt := { s.fmt with width := 0 } } : OStream) = s0 at k1 k2
  have hw : s0.fmt.width = 0 := by rw [← hs]
  have hl0 : s0.fmt.left = s.fmt.left := by rw [← hs]
  have e : ∀ f : HeadersFrame, payloadOn s0.fmt (.headers f) = unlines [
      ascii "  Exclusive: " ++ showsPriority f.header.flags f.priority.exclusive.toNat,
      ascii "  Stream Dependency: " ++ showsPriority f.header.flags f.priority.streamDependency.toNat,
      ascii "  Weight: " ++ showsPriority f.header.flags f.priority.weight.toNat,
      ascii "  Header Block:"] ++ (unlines (f.headerBlock.map entryLine) ++
      paddingOn s0.fmt f.header.flags f.padding) := by
    intro f
    simp only [payloadOn, unlines, List.flatMap_append, List.append_assoc]
  have hno : ∀ f : HeadersFrame, ∀ l ∈ [
      ascii "  Exclusive: " ++ showsPriority f.header.flags f.priority.exclusive.toNat,
      ascii "  Stream Dependency: " ++ showsPriority f.header.flags f.priority.streamDependency.toNat,
      ascii "  Weight: " ++ showsPriority f.header.flags f.priority.weight.toNat,
      ascii "  Header Block:"], 10 ∉ l := by
    intro f l hl
    simp only [List.mem_cons, List.not_mem_nil, or_false] at hl
    rcases hl with rfl | rfl | rfl | rfl
    · rw [List.mem_append]; exact fun h => h.elim (by decide +kernel) (shows_no10 _ _)
    · rw [List.mem_append]; exact fun h => h.elim (by decide +kernel) (shows_no10 _ _)
    · rw [List.mem_append]; exact fun h => h.elim (by decide +kernel) (shows_no10 _ _)
    · decide +kernel
  have t1 := C131_text _ s0 u hw k1 (by simp) (by simp) trivial
  have t2 := C131_text _ s0 u hw k2 (by simp) (by simp) trivial
  obtain ⟨-, i2, i3⟩ := start_inj (t1.symm.trans t2)
  change f.header = g.header at i2
  rw [e, e] at i3
  obtain ⟨j1, j2⟩ := unlines_inj (hno f) (hno g) rfl i3
  obtain ⟨j3, j4⟩ := block_inj hf hg (paddingOn_ends _ _ _) (paddingOn_ends _ _ _) j2
  refine ⟨i2, j3, fun hp => ?_, fun hl hp => ?_⟩
  · simp only [List.cons.injEq, ← i2, showsPriority, hp, if_true] at j1
    obtain ⟨a1, a2, a3, -⟩ := j1
    replace a1 := UInt8.toNat_inj.1 (label_inj a1)
    replace a2 := UInt32.toNat_inj.1 (label_inj a2)
    replace a3 := UInt8.toNat_inj.1 (label_inj a3)
    cases hfp : f.priority
    cases hgp : g.priority
    rw [hfp, hgp] at a1 a2 a3
    simp only at a1 a2 a3
    subst a1 a2 a3
    rfl
  · rw [← i2] at j4
    exact paddingOn_inj (hl0.trans hl) hp j4

attribute [local instance] x86 in
/-- A padded HEADERS frame with priority on a stream in upper case with prefixes and a width. -/
example : CleanBlock [⟨.withoutIndexing, .header (bstr "host", bstr "h")⟩] ∧
    (∃ t, printedOn (.headers ⟨[], ⟨6, 1, 44, 0, 1⟩, [0, 171], ⟨1, 3, 15⟩,
      [⟨.withoutIndexing, .header (bstr "host", bstr "h")⟩]⟩) ⟨[], .oct, true, true, false, 46, 40⟩ =
        .ok t) := by
  refine ⟨?_, ⟨_, by rfl⟩⟩
  intro e he h hh
  rw [List.mem_singleton.1 he] at hh
  cases hh
  decide +kernel

/-- C132, PUSH_PROMISE with a clean header block, as for HEADERS. Missing: padding on left-adjusted
streams, see `C132_left_violated`; other blocks, as for HEADERS. -/
theorem C132_push_promise_partial [Platform] (f g : PushPromiseFrame) (s : OStream) (t : Bytes)
    (hf : CleanBlock f.payload.headerBlock) (hg : CleanBlock g.payload.headerBlock)
    (h1 : printedOn (.pushPromise f) s = .ok t) (h2 : printedOn (.pushPromise g) s = .ok t) :
    f.header = g.header ∧ f.payload.reserved = g.payload.reserved ∧
      f.payload.promisedStreamId = g.payload.promisedStreamId ∧
      f.payload.headerBlock.map (·.entry) = g.payload.headerBlock.map (·.entry) ∧
      (s.fmt.left = false → hasPadded f.header.flags → f.payload.padding = g.payload.padding) := by
  obtain ⟨-, u, k1, k2⟩ := drop_width h1 h2
  clear h1 h2
  generalize hs : ({ s with fmt := { s.fmt with width := 0 } } : OStream) = s0 at k1 k2
  have hw : s0.fmt.width = 0 := by rw [← hs]
  have hl0 : s0.fmt.left = s.fmt.left := by rw [← hs]
  have e : ∀ f : PushPromiseFrame, payloadOn s0.fmt (.pushPromise f) = unlines [
      ascii "  R: " ++ decimal f.payload.reserved.toNat,
      ascii "  Promised Stream ID: " ++ decimal f.payload.promisedStreamId.toNat,
      ascii "  Header Block:"] ++ (unlines (f.payload.headerBlock.map entryLine) ++
      paddingOn s0.fmt f.header.flags f.payload.padding) := by
    intro f
    simp only [payloadOn, unlines, List.flatMap_append, List.append_assoc]
  have hno : ∀ f : PushPromiseFrame, ∀ l ∈ [
      ascii "  R: " ++ decimal f.payload.reserved.toNat,
      ascii "  Promised Stream ID: " ++ decimal f.payload.promisedStreamId.toNat,
      ascii "  Header Block:"], 10 ∉ l := by
    intro f l hl
    simp only [List.mem_cons, List.not_mem_nil, or_false] at hl
    rcases hl with rfl | rfl | rfl
    · exact label_no10 (by decide +kernel) _
    · exact label_no10 (by decide +kernel) _
    · decide +kernel
  have t1 := C131_text _ s0 u hw k1 (by simp) (by simp) trivial
  have t2 := C131_text _ s0 u hw k2 (by simp) (by simp) trivial
  obtain ⟨-, i2, i3⟩ := start_inj (t1.symm.trans t2)
  change f.header = g.header at i2
  rw [e, e] at i3
  obtain ⟨j1, j2⟩ := unlines_inj (hno f) (hno g) rfl i3
  obtain ⟨j3, j4⟩ := block_inj hf hg (paddingOn_ends _ _ _) (paddingOn_ends _ _ _) j2
  simp only [List.cons.injEq] at j1
  refine ⟨i2, UInt8.toNat_inj.1 (label_inj j1.1), UInt32.toNat_inj.1 (label_inj j1.2.1), j3,
    fun hl hp => ?_⟩
  rw [← i2] at j4
  exact paddingOn_inj (hl0.trans hl) hp j4

attribute [local instance] x86 in
/-- A padded PUSH_PROMISE frame on a left-adjusted stream with a width. -/
example : ∃ t, printedOn (.pushPromise ⟨[], ⟨8, 5, 12, 0, 1⟩, ⟨0, 2,
      [⟨.withoutIndexing, .header (bstr "host", bstr "h")⟩], [0, 171]⟩⟩) ⟨[], .oct, true, true, true, 46, 40⟩ =
        .ok t :=
  ⟨_, by rfl⟩

end Mh2c
