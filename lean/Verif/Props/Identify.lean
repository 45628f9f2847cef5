/-
C76: the printed text identifies the frame.
-/
import Verif.Props.Printing

namespace Mh2c

open Rfc Mh2c.Stream

/-! ### Reading the text back -/

theorem line_inj {a b x y : Bytes} (c : UInt8) (ha : c ∉ a) (hb : c ∉ b)
    (h : a ++ c :: x = b ++ c :: y) : a = b ∧ x = y := by
  induction a generalizing b with
  | nil =>
      cases b with
      | nil => exact ⟨rfl, (List.cons.inj h).2⟩
      | cons b bs => exact absurd (List.cons.inj h).1 (fun hc => hb (by rw [hc]; simp))
  | cons a as ih =>
      cases b with
      | nil => exact absurd (List.cons.inj h).1 (fun hc => ha (by rw [← hc]; simp))
      | cons b bs =>
          obtain ⟨h1, h2⟩ := List.cons.inj h
          subst h1
          obtain ⟨h3, h4⟩ := ih (fun hc => ha (by simp [hc])) (fun hc => hb (by simp [hc])) h2
          exact ⟨by rw [h3], h4⟩

theorem digit_ne (d : Nat) (h : d < 16) : digit d ≠ 10 ∧ digit d ≠ 32 ∧ digit d ≠ 58 ∧ digit d ≠ 41 := by
  have : (List.range 16).all (fun d => digit d != 10 && digit d != 32 && digit d != 58 &&
    digit d != 41) = true := by decide +kernel
  have := List.all_eq_true.1 this d (List.mem_range.2 h)
  simpa [and_assoc] using this

theorem digit_inj {d e : Nat} (hd : d < 16) (he : e < 16) (h : digit d = digit e) : d = e := by
  have : (List.range 16).all (fun d => (List.range 16).all fun e => digit d != digit e || d == e) =
    true := by decide +kernel
  have := List.all_eq_true.1 (List.all_eq_true.1 this d (List.mem_range.2 hd)) e (List.mem_range.2 he)
  simp only [Bool.or_eq_true, bne_iff_ne, beq_iff_eq] at this
  exact this.resolve_left (fun hc => hc h)

theorem numeral_mem {b n : Nat} (hb : 2 ≤ b) (hb2 : b ≤ 16) {c : UInt8} (h : c ∈ numeral b n) :
    c ≠ 10 ∧ c ≠ 32 ∧ c ≠ 58 ∧ c ≠ 41 := by
  obtain ⟨ds, h1, h2, -⟩ := C74_numeral b n hb hb2
  rw [h1] at h
  obtain ⟨d, hd, rfl⟩ := List.mem_map.1 h
  exact digit_ne d (by have := h2 d hd; omega)

theorem numeral_inj {b m n : Nat} (hb : 2 ≤ b) (hb2 : b ≤ 16) (h : numeral b m = numeral b n) :
    m = n := by
  obtain ⟨ds, h1, h2, -, h3, -⟩ := C74_numeral b m hb hb2
  obtain ⟨es, g1, g2, -, g3, -⟩ := C74_numeral b n hb hb2
  rw [h1, g1] at h
  have : ds = es := by
    clear h1 h3 g1 g3
    induction ds generalizing es with
    | nil => cases es with
      | nil => rfl
      | cons => cases h
    | cons d ds ih => cases es with
      | nil => cases h
      | cons e es =>
          rw [List.map_cons, List.map_cons] at h
          obtain ⟨i1, i2⟩ := List.cons.inj h
          have := h2 d (by simp)
          have := g2 e (by simp)
          rw [digit_inj (by omega) (by omega) i1, ih (fun x hx => h2 x (by simp [hx])) es i2
            (fun x hx => g2 x (by simp [hx]))]
  rw [← h3, ← g3, this]

/-- Lines without newlines are determined by the text. -/
theorem unlines_inj {as bs : List Bytes} {x y : Bytes} (ha : ∀ l ∈ as, 10 ∉ l) (hb : ∀ l ∈ bs, 10 ∉ l)
    (hl : as.length = bs.length) (h : unlines as ++ x = unlines bs ++ y) : as = bs ∧ x = y := by
  induction as generalizing bs with
  | nil => cases bs with
    | nil => exact ⟨rfl, h⟩
    | cons => cases hl
  | cons a as ih => cases bs with
    | nil => cases hl
    | cons b bs =>
        simp only [unlines, List.flatMap_cons, List.append_assoc, List.cons_append, List.nil_append] at h
        obtain ⟨h1, h2⟩ := line_inj 10 (ha a (by simp)) (hb b (by simp)) h
        obtain ⟨h3, h4⟩ := ih (fun l hl => ha l (by simp [hl])) (fun l hl => hb l (by simp [hl]))
          (by simpa using hl) h2
        exact ⟨by rw [h1, h3], h4⟩

theorem decimal_no10 (n : Nat) : 10 ∉ decimal n := fun h => (numeral_mem (by omega) (by omega) h).1 rfl

theorem label_no10 {l : Bytes} (hl : 10 ∉ l) (n : Nat) : 10 ∉ l ++ decimal n := by
  rw [List.mem_append]
  exact fun h => h.elim hl (decimal_no10 n)

theorem title_no10 (f : Frame) : 10 ∉ title f := by
  cases f <;> simp only [title] <;> decide +kernel

theorem label_inj {l : Bytes} {m n : Nat} (h : l ++ decimal m = l ++ decimal n) : m = n :=
  numeral_inj (by omega) (by omega) (List.append_cancel_left h)

/-- Title and header can be read off the text. -/
theorem start_inj {f g : Frame} {x y : Bytes} (h : startText f ++ x = startText g ++ y) :
    title f = title g ∧ f.header = g.header ∧ x = y := by
  have hno : ∀ f : Frame, ∀ l ∈ title f :: headerLines f.header ++ [ascii "[PAYLOAD]"], 10 ∉ l := by
    intro f l hl
    simp only [headerLines, List.cons_append, List.nil_append, List.mem_cons, List.not_mem_nil,
      or_false] at hl
    rcases hl with rfl | rfl | rfl | rfl | rfl | rfl | rfl | rfl
    · exact title_no10 f
    · decide +kernel
    all_goals first | exact label_no10 (by decide +kernel) _ | decide +kernel
  obtain ⟨h1, h2⟩ := unlines_inj (hno f) (hno g) rfl h
  simp only [headerLines, List.cons_append, List.nil_append, List.cons.injEq] at h1
  obtain ⟨i1, -, i2, i3, i4, i5, i6, -⟩ := h1
  refine ⟨i1, ?_, h2⟩
  have j2 := UInt32.toNat_inj.1 (label_inj i2)
  have j3 := UInt8.toNat_inj.1 (label_inj i3)
  have j4 := UInt8.toNat_inj.1 (label_inj i4)
  have j5 := UInt8.toNat_inj.1 (label_inj i5)
  have j6 := UInt32.toNat_inj.1 (label_inj i6)
  cases hf : f.header
  cases hg : g.header
  rw [hf, hg] at j2 j3 j4 j5 j6
  simp only at j2 j3 j4 j5 j6
  subst j2 j3 j4 j5 j6
  rfl

theorem octet_inj {a b : UInt8} (h : octet a = octet b) : a = b := by
  unfold octet at h
  obtain ⟨h1, h2⟩ := List.cons.inj h
  obtain ⟨h2, -⟩ := List.cons.inj h2
  have ha := a.toNat_lt
  have hb := b.toNat_lt
  have := digit_inj (by omega) (by omega) h1
  have := digit_inj (by omega) (by omega) h2
  exact UInt8.toNat_inj.1 (by omega)

theorem octets_inj {nl : Bytes} {i : Nat} {as bs : Bytes}
    (h : octetsFrom nl i as ++ [10] = octetsFrom nl i bs ++ [10]) : as = bs := by
  induction as generalizing i bs with
  | nil => cases bs with
    | nil => rfl
    | cons b bs =>
        have := (List.cons.inj h).1
        have hb := b.toNat_lt
        exact absurd this.symm (digit_ne _ (by omega)).1
  | cons a as ih => cases bs with
    | nil =>
        have := (List.cons.inj h).1
        have hb := a.toNat_lt
        exact absurd this (digit_ne _ (by omega)).1
    | cons b bs =>
        unfold octetsFrom at h
        simp only [List.append_assoc] at h
        obtain ⟨h1, h2⟩ := List.append_inj h rfl
        rw [octet_inj h1, ih (List.append_cancel_left h2)]

theorem indented_inj {d e x y : Bytes}
    (h : indented d ++ ascii "\n  P" ++ x = indented e ++ ascii "\n  P" ++ y) : d = e ∧ x = y := by
  have hc : ∀ c (d : Bytes), indented (c :: d) = (if c = 10 then ascii "\n    " else [c]) ++ indented d :=
    fun _ _ => rfl
  have hp : ascii "\n  P" = [10, 32, 32, 80] := rfl
  have hi : ascii "\n    " = [10, 32, 32, 32, 32] := rfl
  induction d generalizing e with
  | nil => cases e with
    | nil => exact ⟨rfl, List.append_cancel_left h⟩
    | cons c e =>
        rw [hc] at h
        split at h
        · rw [hp, hi] at h; simp [indented] at h
        · rename_i h10
          rw [hp] at h
          exact absurd (List.cons.inj h).1.symm h10
  | cons c d ih =>
    rw [hc] at h
    cases e with
    | nil =>
        split at h
        · rw [hp, hi] at h; simp [indented] at h
        · rename_i h10
          rw [hp] at h
          exact absurd (List.cons.inj h).1 h10
    | cons b e =>
        rw [hc] at h
        split at h
        · rename_i h10
          split at h
          · rename_i g10
            simp only [List.append_assoc] at h
            have := ih (e := e) (by simp only [List.append_assoc]; exact List.append_cancel_left h)
            exact ⟨by rw [h10, g10, this.1], this.2⟩
          · rename_i g10
            exact absurd (List.cons.inj h).1.symm g10
        · rename_i h10
          split at h
          · exact absurd (List.cons.inj h).1 h10
          · simp only [List.append_assoc, List.cons_append, List.nil_append] at h
            obtain ⟨h1, h2⟩ := List.cons.inj h
            have := ih (e := e) (by simp only [List.append_assoc]; exact h2)
            exact ⟨by rw [h1, this.1], this.2⟩

/-! ### Names, misprints included -/

/-- What is printed for an error code. -/
def shownError (code : Nat) : Bytes := if code = 2 then ascii "INTERNAL_ERRPR" else errorText code

/-- What is printed for a setting. -/
def shownSetting (id : Nat) : Bytes :=
  if id = 3 then ascii "SETTINGS_MAX_CONCURRENT_STREAM" else settingText id

theorem error_shown {code : UInt32} {s s' : Stream} (h : dumpErrorCode code s = .ok s') :
    s'.out = s.out ++ unlines [ascii "  Error Code: " ++ shownError code.toNat] := by
  by_cases h2 : code = 2
  · subst h2
    rw [← Res.ok.inj h]
    rfl
  · rw [error_eq h2 h]
    unfold shownError
    have hc : code.toNat ≠ 2 := fun hc => h2 (UInt32.toNat_inj.1 hc)
    rw [if_neg hc]

theorem setting_shown {p : UInt16 × UInt32} {s s' : Stream} (h : dumpSetting p s = .ok s') :
    s'.hex = s.hex ∧ s'.out = s.out ++ (ascii "  " ++ shownSetting p.1.toNat ++ ascii ": " ++
      numeral (if s.hex then 16 else 10) p.2.toNat ++ [10]) := by
  by_cases h3 : p.1 = 3
  · obtain ⟨id, v⟩ := p
    simp only at h3
    subst h3
    rw [← Res.ok.inj h]
    refine ⟨rfl, ?_⟩
    rw [← digits_eq _ _ (by split <;> omega) (by split <;> omega)]
    simp only [Stream.text, Stream.number, List.append_assoc]
    rfl
  · have := setting_eq h3 h
    unfold shownSetting
    have hc : p.1.toNat ≠ 3 := fun hc => h3 (UInt16.toNat_inj.1 hc)
    rw [if_neg hc]
    exact this

theorem settings_shown {ps : SfPayload} {s s' : Stream} (h : dumpSettings ps s = .ok s') :
    s'.out = s.out ++ unlines (ps.map fun p => ascii "  " ++ shownSetting p.1.toNat ++ ascii ": " ++
      numeral (if s.hex then 16 else 10) p.2.toNat) := by
  induction ps generalizing s with
  | nil => rw [← Res.ok.inj h]; simp [unlines]
  | cons p ps ih =>
      unfold dumpSettings at h
      obtain ⟨s1, h1, h2⟩ := Res.bind_eq_ok.1 h
      obtain ⟨e1, e2⟩ := setting_shown h1
      rw [ih h2, e2, e1]
      simp [unlines]

theorem shownError_cases (code : Nat) :
    (code < 14 ∧ (shownError code).head? ≠ some 85 ∧ 10 ∉ shownError code) ∨
    (14 ≤ code ∧ shownError code = ascii "UNKNOWN_ERROR(" ++ (decimal code ++ ascii ")")) := by
  by_cases h : code < 14
  · left
    have hall : (List.range 14).all (fun c => ((shownError c).head? != some 85) &&
        !(shownError c).contains 10) = true := by decide +kernel
    have := List.all_eq_true.1 hall code (List.mem_range.2 h)
    simpa [h] using this
  · right
    refine ⟨by omega, ?_⟩
    unfold shownError
    rw [if_neg (by omega), error_unknown _ h, List.append_assoc]

theorem shownError_inj {a b : Nat} (h : shownError a = shownError b) : a = b := by
  rcases shownError_cases a with ⟨h1, h2, -⟩ | ⟨h1, h2⟩ <;>
  rcases shownError_cases b with ⟨g1, g2, -⟩ | ⟨g1, g2⟩
  · have hall : (List.range 14).all (fun a => (List.range 14).all fun b =>
      shownError a != shownError b || a == b) = true := by decide +kernel
    have := List.all_eq_true.1 (List.all_eq_true.1 hall a (List.mem_range.2 h1)) b (List.mem_range.2 g1)
    simp only [Bool.or_eq_true, bne_iff_ne, beq_iff_eq] at this
    exact this.resolve_left (fun hc => hc h)
  · rw [h, g2] at h2; exact absurd rfl h2
  · rw [← h, h2] at g2; exact absurd rfl g2
  · rw [h2, g2] at h
    exact numeral_inj (by omega) (by omega) (List.append_cancel_right (List.append_cancel_left h))

theorem shownError_no10 (a : Nat) : 10 ∉ shownError a := by
  rcases shownError_cases a with ⟨-, -, h⟩ | ⟨-, h⟩
  · exact h
  · rw [h, List.mem_append, List.mem_append]
    rintro (h1 | h1 | h1)
    · exact absurd h1 (by decide +kernel)
    · exact decimal_no10 _ h1
    · exact absurd h1 (by decide +kernel)

theorem shownSetting_cases (id : Nat) :
    (1 ≤ id ∧ id < 7 ∧ (shownSetting id).head? ≠ some 85 ∧ 10 ∉ shownSetting id ∧ 58 ∉ shownSetting id) ∨
    ((id < 1 ∨ 7 ≤ id) ∧ shownSetting id = ascii "UNKNOWN(" ++ (decimal id ++ ascii ")")) := by
  by_cases h : id < 1 ∨ 7 ≤ id
  · right
    refine ⟨h, ?_⟩
    unfold shownSetting
    rw [if_neg (by omega), setting_unknown _ h, List.append_assoc]
  · left
    have hall : (List.range 7).all (fun c => c == 0 || (((shownSetting c).head? != some 85) &&
        !(shownSetting c).contains 10 && !(shownSetting c).contains 58)) = true := by decide +kernel
    have := List.all_eq_true.1 hall id (List.mem_range.2 (by omega))
    simp only [Bool.or_eq_true, beq_iff_eq] at this
    have := this.resolve_left (by omega)
    refine ⟨by omega, by omega, ?_⟩
    simpa [and_assoc] using this

theorem shownSetting_inj {a b : Nat} (h : shownSetting a = shownSetting b) : a = b := by
  rcases shownSetting_cases a with ⟨h1, h1', h2, -⟩ | ⟨h1, h2⟩ <;>
  rcases shownSetting_cases b with ⟨g1, g1', g2, -⟩ | ⟨g1, g2⟩
  · have hall : (List.range 7).all (fun a => (List.range 7).all fun b =>
      a == 0 || b == 0 || shownSetting a != shownSetting b || a == b) = true := by decide +kernel
    have := List.all_eq_true.1 (List.all_eq_true.1 hall a (List.mem_range.2 h1')) b (List.mem_range.2 g1')
    simp only [Bool.or_eq_true, bne_iff_ne, beq_iff_eq] at this
    rcases this with ((h3 | h3) | h3) | h3
    · omega
    · omega
    · exact absurd h h3
    · exact h3
  · rw [h, g2] at h2; exact absurd rfl h2
  · rw [← h, h2] at g2; exact absurd rfl g2
  · rw [h2, g2] at h
    exact numeral_inj (by omega) (by omega) (List.append_cancel_right (List.append_cancel_left h))

theorem shownSetting_no (a : Nat) : 10 ∉ shownSetting a ∧ 58 ∉ shownSetting a := by
  rcases shownSetting_cases a with ⟨-, -, -, h⟩ | ⟨-, h⟩
  · exact h
  · rw [h]
    simp only [List.mem_append]
    constructor
    · rintro (h1 | h1 | h1)
      · exact absurd h1 (by decide +kernel)
      · exact decimal_no10 _ h1
      · exact absurd h1 (by decide +kernel)
    · rintro (h1 | h1 | h1)
      · exact absurd h1 (by decide +kernel)
      · exact (numeral_mem (by omega) (by omega) h1).2.2.1 rfl
      · exact absurd h1 (by decide +kernel)

theorem unlines_inj_end {as bs : List Bytes} (ha : ∀ l ∈ as, 10 ∉ l) (hb : ∀ l ∈ bs, 10 ∉ l)
    (h : unlines as = unlines bs) : as = bs := by
  induction as generalizing bs with
  | nil => cases bs with
    | nil => rfl
    | cons b bs => simp [unlines] at h
  | cons a as ih => cases bs with
    | nil => simp [unlines] at h
    | cons b bs =>
        simp only [unlines, List.flatMap_cons, List.append_assoc, List.cons_append, List.nil_append] at h
        obtain ⟨h1, h2⟩ := line_inj 10 (ha a (by simp)) (hb b (by simp)) h
        rw [h1, ih (fun l hl => ha l (by simp [hl])) (fun l hl => hb l (by simp [hl])) h2]

theorem settings_inj {b : Nat} (hb : 2 ≤ b) (hb2 : b ≤ 16) {ps qs : SfPayload}
    (h : unlines (ps.map fun p => ascii "  " ++ shownSetting p.1.toNat ++ ascii ": " ++
        numeral b p.2.toNat) =
      unlines (qs.map fun p => ascii "  " ++ shownSetting p.1.toNat ++ ascii ": " ++
        numeral b p.2.toNat)) : ps = qs := by
  have hno : ∀ ps : SfPayload, ∀ l ∈ ps.map (fun p => ascii "  " ++ shownSetting p.1.toNat ++
      ascii ": " ++ numeral b p.2.toNat), 10 ∉ l := by
    intro ps l hl
    obtain ⟨p, -, rfl⟩ := List.mem_map.1 hl
    simp only [List.mem_append]
    rintro (((h1 | h1) | h1) | h1)
    · exact absurd h1 (by decide +kernel)
    · exact (shownSetting_no _).1 h1
    · exact absurd h1 (by decide +kernel)
    · exact (numeral_mem hb hb2 h1).1 rfl
  replace h := unlines_inj_end (hno ps) (hno qs) h
  clear hno
  induction ps generalizing qs with
  | nil => cases qs with
    | nil => rfl
    | cons => cases h
  | cons p ps ih => cases qs with
    | nil => cases h
    | cons q qs =>
        rw [List.map_cons, List.map_cons] at h
        obtain ⟨h1, h2⟩ := List.cons.inj h
        simp only [List.append_assoc] at h1
        have h1 := List.append_cancel_left h1
        obtain ⟨h3, h4⟩ := line_inj 58 (shownSetting_no _).2 (shownSetting_no _).2 h1
        have h5 := numeral_inj hb hb2 (List.append_cancel_left (as := [32]) h4)
        have : p = q := Prod.ext (UInt16.toNat_inj.1 (shownSetting_inj h3)) (UInt32.toNat_inj.1 h5)
        rw [this, ih h2]

/-! ### C76 -/

/-- The text a frame adds. -/
theorem printed_out [Platform] {f : Frame} {s : Stream} {t : Bytes} (h : printedText f s = .ok t)
    {x : Bytes} (hx : ∀ s', f.dump s = .ok s' → s'.out = s.out ++ x) : t = x := by
  unfold printedText at h
  obtain ⟨s', h1, h2⟩ := Res.bind_eq_ok.1 h
  rw [hx s' h1] at h2
  have := Res.ok.inj h2
  simp at this
  exact this.symm

/-- The payload part of the text, misprints included. -/
def shownPayload (b : Nat) : Frame → Bytes
  | .rstStream f => unlines [ascii "  Error Code: " ++ shownError f.errorCode.toNat]
  | .settings f => unlines (f.payload.map fun p =>
      ascii "  " ++ shownSetting p.1.toNat ++ ascii ": " ++ numeral b p.2.toNat)
  | f => payloadText b f

theorem shown_text [Platform] (f : Frame) (s s' : Stream) (h : f.dump s = .ok s')
    (hd : ∀ g, f ≠ .data g) (hg : ∀ g, f ≠ .goaway g) :
    s'.out = s.out ++ (startText f ++ shownPayload (if s.hex then 16 else 10) f) := by
  rw [← List.append_assoc]
  cases f with
  | rstStream f =>
      rw [error_shown h, show dumpStart _ f.header s = dumpStart _ (Frame.rstStream f).header s from rfl,
        start_eq (.rstStream f) (bstr "=== RST_STREAM FRAME ===\n") rfl]
      rfl
  | settings f =>
      rw [settings_shown h, show dumpStart _ f.header s = dumpStart _ (Frame.settings f).header s from rfl,
        start_eq (.settings f) (bstr "=== SETTINGS FRAME ===\n") rfl]
      rfl
  | data f => exact absurd rfl (hd f)
  | goaway f => exact absurd rfl (hg f)
  | headers f => exact C74_text _ s s' h hd hg trivial
  | priority f => exact C74_text _ s s' h hd hg trivial
  | pushPromise f => exact C74_text _ s s' h hd hg trivial
  | ping f => exact C74_text _ s s' h hd hg trivial
  | windowUpdate f => exact C74_text _ s s' h hd hg trivial
  | continuation f => exact C74_text _ s s' h hd hg trivial
  | raw f => exact C74_text _ s s' h hd hg trivial

theorem title_class {f g : Frame} (h : title f = title g) : rfcType f = rfcType g := by
  have key : ∀ a b : Bytes × Option Nat, a ∈ [
      (ascii "=== DATA FRAME ===", some 0), (ascii "=== HEADERS FRAME ===", some 1),
      (ascii "=== PRIORITY FRAME ===", some 2), (ascii "=== RST_STREAM FRAME ===", some 3),
      (ascii "=== SETTINGS FRAME ===", some 4), (ascii "=== PUSH_PROMISE FRAME ===", some 5),
      (ascii "=== PING_STREAM FRAME ===", some 6), (ascii "=== GOAWAY FRAME ===", some 7),
      (ascii "=== WINDOW_UPDATE FRAME ===", some 8), (ascii "=== CONTINUATION FRAME ===", some 9),
      (ascii "=== GENERIC FRAME (unimplemented) ===", none)] → b ∈ [
      (ascii "=== DATA FRAME ===", some 0), (ascii "=== HEADERS FRAME ===", some 1),
      (ascii "=== PRIORITY FRAME ===", some 2), (ascii "=== RST_STREAM FRAME ===", some 3),
      (ascii "=== SETTINGS FRAME ===", some 4), (ascii "=== PUSH_PROMISE FRAME ===", some 5),
      (ascii "=== PING_STREAM FRAME ===", some 6), (ascii "=== GOAWAY FRAME ===", some 7),
      (ascii "=== WINDOW_UPDATE FRAME ===", some 8), (ascii "=== CONTINUATION FRAME ===", some 9),
      (ascii "=== GENERIC FRAME (unimplemented) ===", none)] → a.1 = b.1 → a.2 = b.2 := by
    have hall : (let l : List (Bytes × Option Nat) := [
      (ascii "=== DATA FRAME ===", some 0), (ascii "=== HEADERS FRAME ===", some 1),
      (ascii "=== PRIORITY FRAME ===", some 2), (ascii "=== RST_STREAM FRAME ===", some 3),
      (ascii "=== SETTINGS FRAME ===", some 4), (ascii "=== PUSH_PROMISE FRAME ===", some 5),
      (ascii "=== PING_STREAM FRAME ===", some 6), (ascii "=== GOAWAY FRAME ===", some 7),
      (ascii "=== WINDOW_UPDATE FRAME ===", some 8), (ascii "=== CONTINUATION FRAME ===", some 9),
      (ascii "=== GENERIC FRAME (unimplemented) ===", none)]
      l.all fun a => l.all fun b => a.1 != b.1 || a.2 == b.2) = true := by decide +kernel
    intro a b ha hb he
    have := List.all_eq_true.1 (List.all_eq_true.1 hall a ha) b hb
    simp only [Bool.or_eq_true, bne_iff_ne, beq_iff_eq] at this
    exact this.resolve_left (fun hc => hc he)
  have hm : ∀ f : Frame, (title f, rfcType f) ∈ [
      (ascii "=== DATA FRAME ===", some 0), (ascii "=== HEADERS FRAME ===", some 1),
      (ascii "=== PRIORITY FRAME ===", some 2), (ascii "=== RST_STREAM FRAME ===", some 3),
      (ascii "=== SETTINGS FRAME ===", some 4), (ascii "=== PUSH_PROMISE FRAME ===", some 5),
      (ascii "=== PING_STREAM FRAME ===", some 6), (ascii "=== GOAWAY FRAME ===", some 7),
      (ascii "=== WINDOW_UPDATE FRAME ===", some 8), (ascii "=== CONTINUATION FRAME ===", some 9),
      (ascii "=== GENERIC FRAME (unimplemented) ===", none)] := by
    intro f
    cases f <;> simp only [title, rfcType, List.mem_cons, true_or, or_true]
  exact key _ _ (hm f) (hm g) h

theorem data_text [Platform] {f : DataFrame} {s : Stream} {t : Bytes}
    (hf : ShownInFull (.data f)) (h : printedText (.data f) s = .ok t) :
    ∃ data padding, f.payload = withPadding f.header.flags data padding ∧ padding.length ≤ 255 ∧
      (¬ hasPadded f.header.flags → padding = []) ∧
      t = startText (.data f) ++ dataText data padding := by
  obtain ⟨h1, h2⟩ := hf
  generalize hfl : f.header.flags = flags at h1 ⊢
  generalize hs : f.header.streamId = sid at h1
  generalize hr : f.payload = raw at h1 h2 ⊢
  subst h1
  by_cases hp : DataPrintable flags raw
  · obtain ⟨data, padding, s', e1, e2, e3, e4, e5⟩ := C74_data flags sid raw s h2 hp
    refine ⟨data, padding, e1, e2, e3, printed_out h ?_⟩
    intro s2 hs2
    rw [e4] at hs2
    rw [← Res.ok.inj hs2, e5, List.append_assoc]
  · obtain ⟨k, hk⟩ := C68_unprintable_violated flags sid raw s h2 hp
    unfold printedText at h
    obtain ⟨s', h3, -⟩ := Res.bind_eq_ok.1 h
    change (DataFrame.new flags sid raw).dump s = _ at h3
    rw [hk] at h3
    cases h3

theorem dataText_inj {d1 p1 d2 p2 : Bytes} (h : dataText d1 p1 = dataText d2 p2) :
    d1 = d2 ∧ p1 = p2 := by
  have e : ∀ d p : Bytes, dataText d p = unlines [ascii "  Pad Length: " ++ decimal p.length,
      ascii "  Data      : "] ++ (ascii "    " ++ (indented d ++ ascii "\n  P" ++
        (ascii "adding   : \n" ++ (octetsFrom (ascii "\n              ") 0 p ++ [10])))) := by
    intro d p
    simp only [dataText, unlines, List.flatMap_cons, List.flatMap_nil, List.append_assoc]
    rfl
  rw [e, e] at h
  have hno : ∀ p : Bytes, ∀ l ∈ [ascii "  Pad Length: " ++ decimal p.length, ascii "  Data      : "],
      10 ∉ l := by
    intro p l hl
    simp only [List.mem_cons, List.not_mem_nil, or_false] at hl
    rcases hl with rfl | rfl
    · exact label_no10 (by decide +kernel) _
    · decide +kernel
  obtain ⟨-, h2⟩ := unlines_inj (hno p1) (hno p2) rfl h
  obtain ⟨h3, h4⟩ := indented_inj (List.append_cancel_left h2)
  exact ⟨h3, octets_inj (List.append_cancel_left h4)⟩

/-- C76, the part that holds: two frames shown in full for which the same text is printed on the
same stream are the same frame. Missing: frames with a header block, see
`C76_headers_violated` and `C76_headers_partial`; GOAWAY, see `C76_goaway_exact_partial`. -/
theorem C76_identifies_partial [Platform] (f g : Frame) (s : Stream) (t : Bytes)
    (hf : ShownInFull f) (hg : ShownInFull g) (h1 : printedText f s = .ok t)
    (h2 : printedText g s = .ok t) : f = g := by
  have hb : 2 ≤ (if s.hex then 16 else 10) := by split <;> omega
  have hb2 : (if s.hex then 16 else 10) ≤ 16 := by split <;> omega
  have main : ∀ f, ShownInFull f → printedText f s = .ok t → ∃ x, t = startText f ++ x ∧
      ((∀ g, f ≠ .data g) → x = shownPayload (if s.hex then 16 else 10) f) := by
    intro f hf h
    by_cases hd : ∃ d, f = .data d
    · obtain ⟨d, rfl⟩ := hd
      obtain ⟨data, padding, -, -, -, e⟩ := data_text hf h
      exact ⟨_, e, fun hc => absurd rfl (hc d)⟩
    · refine ⟨_, printed_out h fun s' h' => shown_text f s s' h' (fun g hc => hd ⟨g, hc⟩) ?_, fun _ => rfl⟩
      rintro g rfl
      exact hf
  obtain ⟨x, hx, hx2⟩ := main f hf h1
  obtain ⟨y, hy, hy2⟩ := main g hg h2
  obtain ⟨i1, i2, i3⟩ := start_inj (hx.symm.trans hy)
  have hc := title_class i1
  cases f with
  | headers f => exact hf.elim
  | pushPromise f => exact hf.elim
  | continuation f => exact hf.elim
  | goaway f => exact hf.elim
  | data f => cases g with
    | data g =>
        obtain ⟨d1, p1, e1, e2, e3, e4⟩ := data_text hf h1
        obtain ⟨d2, p2, j1, j2, j3, j4⟩ := data_text hg h2
        obtain ⟨-, -, k⟩ := start_inj (e4.symm.trans j4)
        obtain ⟨rfl, rfl⟩ := dataText_inj k
        change f.header = g.header at i2
        have : f.payload = g.payload := by rw [e1, j1, i2]
        rw [hf.1, hg.1, this, i2]
    | _ => cases hc
  | priority f => cases g with
    | priority g =>
        have h := (hx2 (by simp)).symm.trans (i3.trans (hy2 (by simp)))
        have hno : ∀ f : PriorityFrame, ∀ l ∈ [ascii "  E: " ++ decimal f.payload.exclusive.toNat,
            ascii "  Stream Dependency: " ++ decimal f.payload.streamDependency.toNat,
            ascii "  Weight: " ++ decimal f.payload.weight.toNat], 10 ∉ l := by
          intro f l hl
          simp only [List.mem_cons, List.not_mem_nil, or_false] at hl
          rcases hl with rfl | rfl | rfl <;> exact label_no10 (by decide +kernel) _
        have := unlines_inj_end (hno f) (hno g) h
        simp only [List.cons.injEq] at this
        obtain ⟨a1, a2, a3, -⟩ := this
        replace a1 := UInt8.toNat_inj.1 (label_inj a1)
        replace a2 := UInt32.toNat_inj.1 (label_inj a2)
        replace a3 := UInt8.toNat_inj.1 (label_inj a3)
        obtain ⟨fh, ⟨fe, fd, fw⟩⟩ := f
        obtain ⟨gh, ⟨ge, gd, gw⟩⟩ := g
        simp only [Frame.header] at a1 a2 a3 i2
        subst a1 a2 a3 i2
        rfl
    | _ => cases hc
  | rstStream f => cases g with
    | rstStream g =>
        have h := (hx2 (by simp)).symm.trans (i3.trans (hy2 (by simp)))
        have hno : ∀ f : RstStreamFrame, ∀ l ∈ [ascii "  Error Code: " ++ shownError f.errorCode.toNat],
            10 ∉ l := by
          intro f l hl
          simp only [List.mem_cons, List.not_mem_nil, or_false] at hl
          rw [hl, List.mem_append]
          rintro (hc | hc)
          · exact absurd hc (by decide +kernel)
          · exact shownError_no10 _ hc
        have := unlines_inj_end (hno f) (hno g) h
        simp only [List.cons.injEq] at this
        have := UInt32.toNat_inj.1 (shownError_inj (List.append_cancel_left this.1))
        obtain ⟨fh, fc⟩ := f
        obtain ⟨gh, gc⟩ := g
        simp only [Frame.header] at this i2
        subst this i2
        rfl
    | _ => cases hc
  | settings f => cases g with
    | settings g =>
        have h := settings_inj hb hb2 ((hx2 (by simp)).symm.trans (i3.trans (hy2 (by simp))))
        obtain ⟨fh, fp⟩ := f
        obtain ⟨gh, gp⟩ := g
        simp only [Frame.header] at h i2
        subst h i2
        rfl
    | _ => cases hc
  | ping f => cases g with
    | ping g =>
        have h := octets_inj ((hx2 (by simp)).symm.trans (i3.trans (hy2 (by simp))))
        obtain ⟨fh, fp⟩ := f
        obtain ⟨gh, gp⟩ := g
        simp only [Frame.header] at h i2
        subst h i2
        rfl
    | _ => cases hc
  | windowUpdate f => cases g with
    | windowUpdate g =>
        have h := (hx2 (by simp)).symm.trans (i3.trans (hy2 (by simp)))
        have hno : ∀ f : WindowUpdateFrame, ∀ l ∈ [ascii "  R: " ++ decimal f.reserved.toNat,
            ascii "  Window size Increment: " ++ decimal f.increment.toNat], 10 ∉ l := by
          intro f l hl
          simp only [List.mem_cons, List.not_mem_nil, or_false] at hl
          rcases hl with rfl | rfl <;> exact label_no10 (by decide +kernel) _
        have := unlines_inj_end (hno f) (hno g) h
        simp only [List.cons.injEq] at this
        obtain ⟨a1, a2, -⟩ := this
        replace a1 := UInt8.toNat_inj.1 (label_inj a1)
        replace a2 := UInt32.toNat_inj.1 (label_inj a2)
        obtain ⟨fh, fr, fi⟩ := f
        obtain ⟨gh, gr, gi⟩ := g
        simp only [Frame.header] at a1 a2 i2
        subst a1 a2 i2
        rfl
    | _ => cases hc
  | raw f => cases g with
    | raw g =>
        have h := octets_inj ((hx2 (by simp)).symm.trans (i3.trans (hy2 (by simp))))
        obtain ⟨fh, fp⟩ := f
        obtain ⟨gh, gp⟩ := g
        simp only [Frame.header] at h i2
        subst h i2
        rfl
    | _ => cases hc

attribute [local instance] x86 in
example : ShownInFull (.data (DataFrame.new 8 1 [2, 104, 10, 0, 0])) ∧
    ShownInFull (.settings ⟨⟨6, 4, 0, 0, 0⟩, [(3, 100)]⟩) ∧
    (∃ t, printedText (.data (DataFrame.new 8 1 [2, 104, 10, 0, 0])) ⟨[], false⟩ = .ok t) ∧
    ∃ t, printedText (.settings ⟨⟨6, 4, 0, 0, 0⟩, [(3, 100)]⟩) ⟨[], true⟩ = .ok t := by
  refine ⟨⟨rfl, by decide⟩, trivial, ⟨ascii "=== DATA FRAME ===\n[Frame Header]\n  length    : 5\n" ++
    ascii "  type      : 0\n  flags     : 8\n  reserved  : 0\n  stream id : 1\n[PAYLOAD]\n" ++
    ascii "  Pad Length: 2\n  Data      : \n    h\n    \n  Padding   : \n00 00 \n", by decide +kernel⟩,
    ⟨ascii "=== SETTINGS FRAME ===\n[Frame Header]\n  length    : 6\n" ++
    ascii "  type      : 4\n  flags     : 0\n  reserved  : 0\n  stream id : 0\n[PAYLOAD]\n" ++
    ascii "  SETTINGS_MAX_CONCURRENT_STREAM: 64\n", by decide +kernel⟩⟩

theorem entryLine_no10 {e : HeaderEntry} (h : ∀ x, e.entry = .header x → 32 ∉ x.1 ∧ 10 ∉ x.1 ∧ 10 ∉ x.2) :
    10 ∉ entryLine e := by
  obtain ⟨p, v⟩ := e
  cases v with
  | header x =>
      obtain ⟨-, h1, h2⟩ := h x rfl
      simp only [entryLine, List.mem_append]
      rintro (((h3 | h3) | h3) | h3)
      · exact absurd h3 (by decide +kernel)
      · exact h1 h3
      · exact absurd h3 (by decide +kernel)
      · exact h2 h3
  | maxSize n =>
      simp only [entryLine, List.mem_append]
      rintro ((h3 | h3) | h3)
      · exact absurd h3 (by decide +kernel)
      · exact decimal_no10 _ h3
      · exact absurd h3 (by decide +kernel)

theorem entryLine_inj {e f : HeaderEntry}
    (he : ∀ x, e.entry = .header x → 32 ∉ x.1 ∧ 10 ∉ x.1 ∧ 10 ∉ x.2)
    (hf : ∀ x, f.entry = .header x → 32 ∉ x.1 ∧ 10 ∉ x.1 ∧ 10 ∉ x.2)
    (h : entryLine e = entryLine f) : e.entry = f.entry := by
  obtain ⟨p, v⟩ := e
  obtain ⟨q, w⟩ := f
  have hc : ∀ n : Nat, 32 ∉ decimal n := fun n hn => (numeral_mem (by omega) (by omega) hn).2.1 rfl
  have hl : ∀ x : Header, entryLine ⟨p, .header x⟩ = ascii "    " ++ ((x.1 ++ [58]) ++ 32 :: x.2) := by
    intro x; simp only [entryLine, List.append_assoc]; rfl
  have hm : ∀ n : Nat, entryLine ⟨p, .maxSize n⟩ =
      ascii "    " ++ (decimal n ++ 32 :: ascii "(dynamic table size update)") := by
    intro x; simp only [entryLine, List.append_assoc]; rfl
  have hl' : ∀ x : Header, entryLine ⟨q, .header x⟩ = ascii "    " ++ ((x.1 ++ [58]) ++ 32 :: x.2) := by
    intro x; simp only [entryLine, List.append_assoc]; rfl
  have hm' : ∀ n : Nat, entryLine ⟨q, .maxSize n⟩ =
      ascii "    " ++ (decimal n ++ 32 :: ascii "(dynamic table size update)") := by
    intro x; simp only [entryLine, List.append_assoc]; rfl
  have hx : ∀ x : Header, 32 ∉ x.1 → 32 ∉ x.1 ++ [58] := by
    intro x h1; simp [h1]
  cases v with
  | header x => cases w with
    | header y =>
        rw [hl, hl'] at h
        obtain ⟨h1, h2⟩ := line_inj 32 (hx x (he x rfl).1) (hx y (hf y rfl).1) (List.append_cancel_left h)
        have : x = y := Prod.ext (List.append_cancel_right h1) h2
        rw [this]
    | maxSize n =>
        rw [hl, hm'] at h
        obtain ⟨h1, -⟩ := line_inj 32 (hx x (he x rfl).1) (hc n) (List.append_cancel_left h)
        have : (58 : UInt8) ∈ decimal n := by rw [← h1]; simp
        exact absurd rfl (numeral_mem (by omega) (by omega) this).2.2.1
  | maxSize m => cases w with
    | header y =>
        rw [hm, hl'] at h
        obtain ⟨h1, -⟩ := line_inj 32 (hc m) (hx y (hf y rfl).1) (List.append_cancel_left h)
        have : (58 : UInt8) ∈ decimal m := by rw [h1]; simp
        exact absurd rfl (numeral_mem (by omega) (by omega) this).2.2.1
    | maxSize n =>
        rw [hm, hm'] at h
        obtain ⟨h1, -⟩ := line_inj 32 (hc m) (hc n) (List.append_cancel_left h)
        rw [numeral_inj (by omega) (by omega) h1]

theorem entryLine_indent (e : HeaderEntry) : ∃ r, entryLine e = 32 :: 32 :: 32 :: r := by
  obtain ⟨p, v⟩ := e
  cases v <;> exact ⟨_, rfl⟩

/-- Text after the header block, recognisable as such: it does not start with three blanks. -/
def EndsBlock (x : Bytes) : Prop := ∀ r, x ≠ 32 :: 32 :: 32 :: r

theorem block_inj {es fs : HeaderBlock} (he : CleanBlock es) (hf : CleanBlock fs) {x y : Bytes}
    (hx : EndsBlock x) (hy : EndsBlock y)
    (h : unlines (es.map entryLine) ++ x = unlines (fs.map entryLine) ++ y) :
    es.map (·.entry) = fs.map (·.entry) ∧ x = y := by
  induction es generalizing fs with
  | nil => cases fs with
    | nil => exact ⟨rfl, h⟩
    | cons f fs =>
        obtain ⟨r, hr⟩ := entryLine_indent f
        simp only [List.map_nil, List.map_cons, unlines, List.flatMap_nil, List.flatMap_cons, hr,
          List.nil_append, List.cons_append] at h
        exact absurd h (hx _)
  | cons e es ih => cases fs with
    | nil =>
        obtain ⟨r, hr⟩ := entryLine_indent e
        simp only [List.map_nil, List.map_cons, unlines, List.flatMap_nil, List.flatMap_cons, hr,
          List.nil_append, List.cons_append] at h
        exact absurd h.symm (hy _)
    | cons f fs =>
        simp only [List.map_cons, unlines, List.flatMap_cons, List.append_assoc, List.cons_append,
          List.nil_append] at h
        obtain ⟨h1, h2⟩ := line_inj 10 (entryLine_no10 (he e (by simp))) (entryLine_no10 (hf f (by simp))) h
        obtain ⟨h3, h4⟩ := ih (fun a ha => he a (by simp [ha])) (fs := fs)
          (fun a ha => hf a (by simp [ha])) h2
        exact ⟨by rw [List.map_cons, List.map_cons, entryLine_inj (he e (by simp)) (hf f (by simp)) h1, h3], h4⟩

theorem padding_ends (flags : UInt8) (p : Bytes) : EndsBlock (paddingText flags p) := by
  intro r h
  have := congrArg (List.take 3) h
  unfold paddingText at this
  rw [List.take_append_of_le_length (by decide)] at this
  exact absurd (show List.take 3 (ascii "  Padding:\n") = [32, 32, 32] from this) (by decide)

theorem paddingText_inj {flags : UInt8} {p q : Bytes} (hp : hasPadded flags)
    (h : paddingText flags p = paddingText flags q) : p = q := by
  unfold paddingText at h
  rw [if_pos hp, if_pos hp] at h
  simp only [List.append_assoc] at h
  exact octets_inj (List.append_cancel_left (List.append_cancel_left h))

theorem shows_no10 (flags : UInt8) (n : Nat) : 10 ∉ showsPriority flags n := by
  unfold showsPriority
  split
  · exact decimal_no10 n
  · simp

/-- C76, HEADERS with a clean header block: header, priority fields (if flagged), the header list
and the padding (if flagged) can be read off the text. Missing: other blocks, see
`C76_headers_violated`; how each header was represented on the wire is not shown. -/
theorem C76_headers_partial [Platform] (f g : HeadersFrame) (s : Stream) (t : Bytes)
    (hf : CleanBlock f.headerBlock) (hg : CleanBlock g.headerBlock)
    (h1 : printedText (.headers f) s = .ok t) (h2 : printedText (.headers g) s = .ok t) :
    f.header = g.header ∧ f.headerBlock.map (·.entry) = g.headerBlock.map (·.entry) ∧
      (f.header.flags.toNat.testBit 5 → f.priority = g.priority) ∧
      (hasPadded f.header.flags → f.padding = g.padding) := by
  have e : ∀ f : HeadersFrame, payloadText (if s.hex then 16 else 10) (.headers f) = unlines [
      ascii "  Exclusive: " ++ showsPriority f.header.flags f.priority.exclusive.toNat,
      ascii "  Stream Dependency: " ++ showsPriority f.header.flags f.priority.streamDependency.toNat,
      ascii "  Weight: " ++ showsPriority f.header.flags f.priority.weight.toNat,
      ascii "  Header Block:"] ++ (unlines (f.headerBlock.map entryLine) ++
      paddingText f.header.flags f.padding) := by
    intro f
    simp only [payloadText, unlines, List.flatMap_append, List.append_assoc]
  have hno : ∀ f : HeadersFrame, ∀ l ∈ [
      ascii "  Exclusive: " ++ showsPriority f.header.flags f.priority.exclusive.toNat,
      ascii "  Stream Dependency: " ++ showsPriority f.header.flags f.priority.streamDependency.toNat,
      ascii "  Weight: " ++ showsPriority f.header.flags f.priority.weight.toNat,
      ascii "  Header Block:"], 10 ∉ l := by
    intro f l hl
    simp only [List.mem_cons, List.not_mem_nil, or_false] at hl
    rcases hl with rfl | rfl | rfl | rfl
    · rw [List.mem_append]; exact fun h => h.elim (by decide +kernel) (shows_no10 _ _)
    · rw [List.mem_append]; exact fun h => h.elim (by decide +kernel) (shows_no10 _ _)
    · rw [List.mem_append]; exact fun h => h.elim (by decide +kernel) (shows_no10 _ _)
    · decide +kernel
  have t1 := printed_out h1 fun s' h' => shown_text _ s s' h' (by simp) (by simp)
  have t2 := printed_out h2 fun s' h' => shown_text _ s s' h' (by simp) (by simp)
  obtain ⟨-, i2, i3⟩ := start_inj (t1.symm.trans t2)
  change f.header = g.header at i2
  rw [show shownPayload (if s.hex then 16 else 10) (.headers f) =
      payloadText (if s.hex then 16 else 10) (.headers f) from rfl,
    show shownPayload (if s.hex then 16 else 10) (.headers g) =
      payloadText (if s.hex then 16 else 10) (.headers g) from rfl, e, e] at i3
  obtain ⟨j1, j2⟩ := unlines_inj (hno f) (hno g) rfl i3
  obtain ⟨j3, j4⟩ := block_inj hf hg (padding_ends _ _) (padding_ends _ _) j2
  refine ⟨i2, j3, fun hp => ?_, fun hp => ?_⟩
  · simp only [List.cons.injEq, ← i2, showsPriority, hp, if_true] at j1
    obtain ⟨a1, a2, a3, -⟩ := j1
    replace a1 := UInt8.toNat_inj.1 (label_inj a1)
    replace a2 := UInt32.toNat_inj.1 (label_inj a2)
    replace a3 := UInt8.toNat_inj.1 (label_inj a3)
    cases hfp : f.priority
    cases hgp : g.priority
    rw [hfp, hgp] at a1 a2 a3
    simp only at a1 a2 a3
    subst a1 a2 a3
    rfl
  · rw [← i2] at j4
    exact paddingText_inj hp j4

/-- C76, PUSH_PROMISE with a clean header block, as for HEADERS. Missing: other blocks, as for
HEADERS. -/
theorem C76_push_promise_partial [Platform] (f g : PushPromiseFrame) (s : Stream) (t : Bytes)
    (hf : CleanBlock f.payload.headerBlock) (hg : CleanBlock g.payload.headerBlock)
    (h1 : printedText (.pushPromise f) s = .ok t) (h2 : printedText (.pushPromise g) s = .ok t) :
    f.header = g.header ∧ f.payload.reserved = g.payload.reserved ∧
      f.payload.promisedStreamId = g.payload.promisedStreamId ∧
      f.payload.headerBlock.map (·.entry) = g.payload.headerBlock.map (·.entry) ∧
      (hasPadded f.header.flags → f.payload.padding = g.payload.padding) := by
  have e : ∀ f : PushPromiseFrame, shownPayload (if s.hex then 16 else 10) (.pushPromise f) = unlines [
      ascii "  R: " ++ decimal f.payload.reserved.toNat,
      ascii "  Promised Stream ID: " ++ decimal f.payload.promisedStreamId.toNat,
      ascii "  Header Block:"] ++ (unlines (f.payload.headerBlock.map entryLine) ++
      paddingText f.header.flags f.payload.padding) := by
    intro f
    simp only [shownPayload, payloadText, unlines, List.flatMap_append, List.append_assoc]
  have hno : ∀ f : PushPromiseFrame, ∀ l ∈ [
      ascii "  R: " ++ decimal f.payload.reserved.toNat,
      ascii "  Promised Stream ID: " ++ decimal f.payload.promisedStreamId.toNat,
      ascii "  Header Block:"], 10 ∉ l := by
    intro f l hl
    simp only [List.mem_cons, List.not_mem_nil, or_false] at hl
    rcases hl with rfl | rfl | rfl
    · exact label_no10 (by decide +kernel) _
    · exact label_no10 (by decide +kernel) _
    · decide +kernel
  have t1 := printed_out h1 fun s' h' => shown_text _ s s' h' (by simp) (by simp)
  have t2 := printed_out h2 fun s' h' => shown_text _ s s' h' (by simp) (by simp)
  obtain ⟨-, i2, i3⟩ := start_inj (t1.symm.trans t2)
  change f.header = g.header at i2
  rw [e, e] at i3
  obtain ⟨j1, j2⟩ := unlines_inj (hno f) (hno g) rfl i3
  obtain ⟨j3, j4⟩ := block_inj hf hg (padding_ends _ _) (padding_ends _ _) j2
  simp only [List.cons.injEq] at j1
  refine ⟨i2, UInt8.toNat_inj.1 (label_inj j1.1), UInt32.toNat_inj.1 (label_inj j1.2.1), j3, fun hp => ?_⟩
  rw [← i2] at j4
  exact paddingText_inj hp j4

/-- C76, CONTINUATION with a clean header block. Missing: other blocks, as for HEADERS. -/
theorem C76_continuation_partial [Platform] (f g : ContinuationFrame) (s : Stream) (t : Bytes)
    (hf : CleanBlock f.headerBlock) (hg : CleanBlock g.headerBlock)
    (h1 : printedText (.continuation f) s = .ok t) (h2 : printedText (.continuation g) s = .ok t) :
    f.header = g.header ∧ f.headerBlock.map (·.entry) = g.headerBlock.map (·.entry) := by
  have e : ∀ f : ContinuationFrame, shownPayload (if s.hex then 16 else 10) (.continuation f) =
      (ascii "  Header Block:" ++ [10]) ++ (unlines (f.headerBlock.map entryLine) ++ []) := by
    intro f
    simp only [shownPayload, payloadText, unlines, List.flatMap_cons, List.append_nil]
  have t1 := printed_out h1 fun s' h' => shown_text _ s s' h' (by simp) (by simp)
  have t2 := printed_out h2 fun s' h' => shown_text _ s s' h' (by simp) (by simp)
  obtain ⟨-, i2, i3⟩ := start_inj (t1.symm.trans t2)
  rw [e, e] at i3
  exact ⟨i2, (block_inj hf hg (by intro r h; cases h) (by intro r h; cases h)
    (List.append_cancel_left i3)).1⟩

/-- C76 is false of the code for HEADERS: a peer can send one header whose value contains a line
break, so that the text is the same as for another frame of the same length with two headers. -/
theorem C76_headers_violated [P : Platform] (s : Stream) :
    ∃ (fh : FrameHeader) (raw1 raw2 : Bytes) (f g : HeadersFrame),
      buildFrame fh raw1 .default = .ok (.headers f) ∧
      buildFrame fh raw2 .default = .ok (.headers g) ∧
      f.headerBlock.map (·.entry) = [.header (bstr "host", bstr "h\n    x: 2")] ∧
      g.headerBlock.map (·.entry) = [.header (bstr "host", bstr "h"), .header (bstr "x", bstr "2")] ∧
      ∃ t, printedText (.headers f) s = .ok t ∧ printedText (.headers g) s = .ok t := by
  refine ⟨⟨13, 1, 4, 0, 1⟩, [0x0f, 23, 10] ++ bstr "h\n    x: 2",
    [0, 4] ++ bstr "host" ++ [1] ++ bstr "h" ++ [0, 1] ++ bstr "x" ++ [1] ++ bstr "2",
    ⟨[0x0f, 23, 10] ++ bstr "h\n    x: 2", ⟨13, 1, 4, 0, 1⟩, [], .zero,
      [⟨.withoutIndexing, .header (bstr "host", bstr "h\n    x: 2")⟩]⟩,
    ⟨[0, 4] ++ bstr "host" ++ [1] ++ bstr "h" ++ [0, 1] ++ bstr "x" ++ [1] ++ bstr "2",
      ⟨13, 1, 4, 0, 1⟩, [], .zero, [⟨.withoutIndexing, .header (bstr "host", bstr "h")⟩,
        ⟨.withoutIndexing, .header (bstr "x", bstr "2")⟩]⟩, ?_, ?_, rfl, rfl,
    startText (.headers ⟨[], ⟨13, 1, 4, 0, 1⟩, [], .zero, []⟩) ++
      ascii "  Exclusive: \n  Stream Dependency: \n  Weight: \n  Header Block:\n" ++
      ascii "    host: h\n    x: 2\n  Padding:\n", ?_, ?_⟩
  · rcases P with ⟨_ | _, _ | _⟩ <;> decide +kernel
  · rcases P with ⟨_ | _, _ | _⟩ <;> decide +kernel
  · rw [C67_independent_partial _ (by simp) s ⟨[], false⟩]
    rcases P with ⟨_ | _, _ | _⟩ <;> decide +kernel
  · rw [C67_independent_partial _ (by simp) s ⟨[], false⟩]
    rcases P with ⟨_ | _, _ | _⟩ <;> decide +kernel

/-- What is printed for the payload of a GOAWAY frame, misprints included. -/
def shownGoaway (p : GoawayPayload) : Bytes :=
  unlines [ascii "  R: " ++ decimal p.reserved.toNat,
    ascii "  Last-Stream-ID: " ++ decimal p.lastStreamId.toNat,
    ascii "  Error Code: " ++ shownError p.errorCode.toNat] ++
    (ascii "  Additional Debug Data: " ++ (p.debugData.takeWhile (· ≠ 0) ++ [10]))

theorem goaway_text [Platform] {f : GoawayFrame} {s : Stream} {t : Bytes}
    (h : printedText (.goaway f) s = .ok t) : t = startText (.goaway f) ++ shownGoaway f.payload := by
  refine printed_out h fun s' h' => ?_
  change f.dump s = .ok s' at h'
  unfold GoawayFrame.dump at h'
  obtain ⟨s1, h1, h'⟩ := Res.bind_eq_ok.1 h'
  have h3 : ((s1.text (bstr "  Additional Debug Data: ")).text
      (f.payload.debugData.takeWhile (· ≠ 0))).text (bstr "\n") = s' := by
    cases hdd : f.payload.debugData with
    | nil => rw [hdd] at h'; exact Res.ok.inj h'
    | cons x xs =>
        rw [hdd] at h'
        simp only [List.isEmpty_cons, Bool.false_eq_true, if_false] at h'
        unfold cString at h'
        split at h'
        · exact Res.ok.inj h'
        · cases h'
  have h1 := error_shown h1
  rw [← h3]
  have h0 := start_eq (.goaway f) (bstr "=== GOAWAY FRAME ===\n") rfl s
  simp only [Stream.text] at h1 ⊢
  change (dumpStart _ f.header s).out = _ at h0
  rw [h1, h0]
  simp only [shownGoaway, unlines, List.flatMap_cons, List.flatMap_nil, toString_eq, List.append_nil,
    List.append_assoc]
  rfl

/-- C76, GOAWAY, exactly: the texts of two GOAWAY frames are the same if and only if the frames agree
in everything but what comes after the first zero octet of the debug data. Missing (false of the
code): the octets after it, see `C76_goaway_violated`. -/
theorem C76_goaway_exact_partial [Platform] (f g : GoawayFrame) (s : Stream) (t u : Bytes)
    (h1 : printedText (.goaway f) s = .ok t) (h2 : printedText (.goaway g) s = .ok u) :
    t = u ↔ f.header = g.header ∧ f.payload.reserved = g.payload.reserved ∧
      f.payload.lastStreamId = g.payload.lastStreamId ∧
      f.payload.errorCode = g.payload.errorCode ∧
      f.payload.debugData.takeWhile (· ≠ 0) = g.payload.debugData.takeWhile (· ≠ 0) := by
  rw [goaway_text h1, goaway_text h2]
  constructor
  · intro h
    obtain ⟨-, i2, i3⟩ := start_inj h
    have hno : ∀ p : GoawayPayload, ∀ l ∈ [ascii "  R: " ++ decimal p.reserved.toNat,
        ascii "  Last-Stream-ID: " ++ decimal p.lastStreamId.toNat,
        ascii "  Error Code: " ++ shownError p.errorCode.toNat], 10 ∉ l := by
      intro p l hl
      simp only [List.mem_cons, List.not_mem_nil, or_false] at hl
      rcases hl with rfl | rfl | rfl
      · exact label_no10 (by decide +kernel) _
      · exact label_no10 (by decide +kernel) _
      · rw [List.mem_append]
        rintro (hc | hc)
        · exact absurd hc (by decide +kernel)
        · exact shownError_no10 _ hc
    obtain ⟨i4, i5⟩ := unlines_inj (hno f.payload) (hno g.payload) rfl i3
    simp only [List.cons.injEq] at i4
    obtain ⟨a1, a2, a3, -⟩ := i4
    exact ⟨i2, UInt8.toNat_inj.1 (label_inj a1), UInt32.toNat_inj.1 (label_inj a2),
      UInt32.toNat_inj.1 (shownError_inj (List.append_cancel_left a3)),
      (List.append_inj' (List.append_cancel_left i5) rfl).1⟩
  · rintro ⟨e1, e2, e3, e4, e5⟩
    unfold startText shownGoaway
    rw [e2, e3, e4, e5]
    simp only [Frame.header, title, e1]

/-- C76 is false of the code for GOAWAY: debug data is cut at its first zero octet. -/
theorem C76_goaway_violated [P : Platform] (s : Stream) :
    ∃ (fh : FrameHeader) (raw1 raw2 : Bytes) (f g : Frame), f ≠ g ∧
      buildFrame fh raw1 .default = .ok f ∧ buildFrame fh raw2 .default = .ok g ∧
      ∃ t, printedText f s = .ok t ∧ printedText g s = .ok t := by
  refine ⟨⟨11, 7, 0, 0, 0⟩, [0, 0, 0, 1, 0, 0, 0, 8, 65, 0, 66], [0, 0, 0, 1, 0, 0, 0, 8, 65, 0, 67],
    .goaway ⟨⟨11, 7, 0, 0, 0⟩, ⟨0, 1, 8, [65, 0, 66]⟩⟩,
    .goaway ⟨⟨11, 7, 0, 0, 0⟩, ⟨0, 1, 8, [65, 0, 67]⟩⟩, by decide, ?_, ?_,
    startText (.goaway ⟨⟨11, 7, 0, 0, 0⟩, ⟨0, 1, 8, [65, 0, 66]⟩⟩) ++
      ascii "  R: 0\n  Last-Stream-ID: 1\n  Error Code: CANCEL\n  Additional Debug Data: A\n", ?_, ?_⟩
  · rcases P with ⟨_ | _, _ | _⟩ <;> decide +kernel
  · rcases P with ⟨_ | _, _ | _⟩ <;> decide +kernel
  · rw [C67_independent_partial _ (by simp) s ⟨[], false⟩]
    rcases P with ⟨_ | _, _ | _⟩ <;> decide +kernel
  · rw [C67_independent_partial _ (by simp) s ⟨[], false⟩]
    rcases P with ⟨_ | _, _ | _⟩ <;> decide +kernel

/-- Non-vacuity of `C76_goaway_exact_partial`: texts are printed for two frames that differ after a
zero octet and for one that differs before it. -/
example [P : Platform] : ∃ t u,
    printedText (.goaway ⟨⟨11, 7, 0, 0, 0⟩, ⟨0, 1, 2, [65, 0, 66]⟩⟩) ⟨[], false⟩ = .ok t ∧
    printedText (.goaway ⟨⟨11, 7, 0, 0, 0⟩, ⟨0, 1, 2, [65, 0, 67]⟩⟩) ⟨[], false⟩ = .ok t ∧
    printedText (.goaway ⟨⟨11, 7, 0, 0, 0⟩, ⟨0, 1, 2, [66, 0, 66]⟩⟩) ⟨[], false⟩ = .ok u := by
  refine ⟨startText (.goaway ⟨⟨11, 7, 0, 0, 0⟩, ⟨0, 1, 2, [65, 0, 66]⟩⟩) ++
      ascii "  R: 0\n  Last-Stream-ID: 1\n  Error Code: INTERNAL_ERRPR\n  Additional Debug Data: A\n",
    startText (.goaway ⟨⟨11, 7, 0, 0, 0⟩, ⟨0, 1, 2, [66, 0, 66]⟩⟩) ++
      ascii "  R: 0\n  Last-Stream-ID: 1\n  Error Code: INTERNAL_ERRPR\n  Additional Debug Data: B\n",
    ?_, ?_, ?_⟩
  all_goals rcases P with ⟨_ | _, _ | _⟩ <;> decide +kernel

attribute [local instance] x86 in
example : CleanBlock [⟨.neverIndexed, .header (bstr ":path", bstr "/a b")⟩, ⟨.sizeUpdate, .maxSize 5⟩] ∧
    ∃ t, printedText (.headers ⟨[], ⟨3, 1, 0x2c, 0, 1⟩, [1, 2], ⟨1, 3, 9⟩,
      [⟨.neverIndexed, .header (bstr ":path", bstr "/a b")⟩, ⟨.sizeUpdate, .maxSize 5⟩]⟩) ⟨[], false⟩ =
      .ok t := by
  refine ⟨?_, startText (.headers ⟨[], ⟨3, 1, 0x2c, 0, 1⟩, [1, 2], ⟨1, 3, 9⟩, []⟩) ++
    ascii "  Exclusive: 1\n  Stream Dependency: 3\n  Weight: 9\n  Header Block:\n" ++
    ascii "    :path: /a b\n    5 (dynamic table size update)\n  Padding:\n    01 02 \n",
    by decide +kernel⟩
  intro e he h hh
  simp only [List.mem_cons, List.not_mem_nil, or_false] at he
  rcases he with rfl | rfl
  · cases hh; decide +kernel
  · cases hh

attribute [local instance] x86 in
/-- Two PUSH_PROMISE frames that differ and are printed alike: what is not printed is how the header is
to be indexed. The same for CONTINUATION. -/
example :
    let one : HeaderBlock := [⟨.neverIndexed, .header (bstr ":path", bstr "/a b")⟩]
    let other : HeaderBlock := [⟨.withoutIndexing, .header (bstr ":path", bstr "/a b")⟩]
    (∃ t, printedText (.pushPromise ⟨[], ⟨3, 5, 4, 0, 1⟩, ⟨0, 2, one, []⟩⟩) ⟨[], false⟩ = .ok t ∧
      printedText (.pushPromise ⟨[], ⟨3, 5, 4, 0, 1⟩, ⟨0, 2, other, []⟩⟩) ⟨[], false⟩ = .ok t) ∧
    (∃ t, printedText (.continuation ⟨[], ⟨3, 9, 4, 0, 1⟩, one⟩) ⟨[], false⟩ = .ok t ∧
      printedText (.continuation ⟨[], ⟨3, 9, 4, 0, 1⟩, other⟩) ⟨[], false⟩ = .ok t) := by
  intro one other
  refine ⟨⟨startText (.pushPromise ⟨[], ⟨3, 5, 4, 0, 1⟩, ⟨0, 2, [], []⟩⟩) ++
      ascii "  R: 0\n  Promised Stream ID: 2\n  Header Block:\n    :path: /a b\n  Padding:\n", ?_⟩,
    ⟨startText (.continuation ⟨[], ⟨3, 9, 4, 0, 1⟩, []⟩) ++
      ascii "  Header Block:\n    :path: /a b\n", ?_⟩⟩ <;> decide +kernel

end Mh2c
