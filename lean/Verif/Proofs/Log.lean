/-
Lines that start with an equals sign in the text of frames.
-/
import Verif.Spec.Log
import Verif.Proofs.Format
import Verif.Props.FormatText

namespace Mh2c

open Rfc Out

/-- One character: `none` if it is an equals sign that starts a line, else whether a line starts
after it. -/
def scanChar (st : Bool) (c : UInt8) : Option Bool :=
  if st ∧ c = 61 then none else some (decide (c = 10))

/-- The same for a text. -/
def scan : Bool → Bytes → Option Bool
  | st, [] => some st
  | st, c :: cs => (scanChar st c).bind fun st => scan st cs

theorem scan_append (st : Bool) (a b : Bytes) :
    scan st (a ++ b) = (scan st a).bind fun st => scan st b := by
  induction a generalizing st with
  | nil => rfl
  | cons c a ih =>
      simp only [List.cons_append, scan]
      cases scanChar st c with
      | none => rfl
      | some s => simp [ih]

theorem scan_false_plain {t : Bytes} (h : 10 ∉ t) : scan false t = some false := by
  induction t with
  | nil => rfl
  | cons c t ih =>
      simp only [List.mem_cons, not_or] at h
      have : c ≠ 10 := fun e => h.1 e.symm
      simp [scan, scanChar, this, ih h.2]

theorem scan_plain {t : Bytes} (st : Bool) (h : ∀ c ∈ t, c ≠ 10 ∧ c ≠ 61) (hn : t ≠ []) :
    scan st t = some false := by
  cases t with
  | nil => exact absurd rfl hn
  | cons c t =>
      have hc := h c (by simp)
      have ht : 10 ∉ t := fun e => (h 10 (by simp [e])).1 rfl
      simp [scan, scanChar, hc.1, hc.2, scan_false_plain ht]

theorem scan_free {t : Bytes} (h : NoTitleIn t) : ∃ st, scan false t = some st := by
  have key : ∀ (t : Bytes) (st : Bool), NoTitleIn t → (st = true → t.head? ≠ some 61) →
      ∃ st', scan st t = some st' := by
    intro t
    induction t with
    | nil => intro st _ _; exact ⟨st, rfl⟩
    | cons c t ih =>
        intro st h hs
        have h1 : scanChar st c = some (decide (c = 10)) := by
          unfold scanChar
          rw [if_neg]
          rintro ⟨a, rfl⟩
          exact hs a rfl
        simp only [scan, h1, Option.bind_some]
        refine ih _ (fun hi => h (hi.trans (List.suffix_cons c t).isInfix)) fun hc e => ?_
        obtain ⟨r, rfl⟩ : ∃ r, t = 61 :: r := by
          cases t with
          | nil => cases e
          | cons x r => simp only [List.head?_cons, Option.some.injEq] at e; exact ⟨r, by rw [e]⟩
        have hc : c = 10 := by simpa using hc
        subst hc
        exact h ⟨[], r, by simp⟩
  exact key t false h (by simp)

theorem scan_last {a : Bytes} {st st' : Bool} (h : scan st a = some st') (ha : a ≠ []) :
    st' = decide (a.getLast? = some 10) := by
  induction a generalizing st with
  | nil => exact absurd rfl ha
  | cons c a ih =>
      simp only [scan] at h
      cases hc : scanChar st c with
      | none => rw [hc] at h; cases h
      | some s =>
          rw [hc, Option.bind_some] at h
          cases a with
          | nil =>
              cases h
              unfold scanChar at hc
              split at hc
              · cases hc
              · cases hc; simp
          | cons d a => rw [ih h (by simp)]; simp

/-- The insertions write a text with this outcome of the scan, whatever the formatting. -/
def Sc (st : Bool) (l : List Out) (st' : Bool) : Prop :=
  ∀ s : OStream, s.fmt.width = 0 →
    ∃ x, (s.puts l).out = s.out ++ x ∧ (s.puts l).fmt.width = 0 ∧ scan st x = some st'

theorem Sc.nil (st : Bool) : Sc st [] st := fun s hs => ⟨[], by simp [puts_nil], hs, rfl⟩

theorem Sc.append {a b c : Bool} {l m : List Out} (h1 : Sc a l b) (h2 : Sc b m c) :
    Sc a (l ++ m) c := by
  intro s hs
  obtain ⟨x, e1, w1, c1⟩ := h1 s hs
  obtain ⟨y, e2, w2, c2⟩ := h2 _ w1
  refine ⟨x ++ y, ?_, ?_, ?_⟩
  · rw [puts_append, e2, e1, List.append_assoc]
  · rw [puts_append]; exact w2
  · rw [scan_append, c1]; exact c2

theorem Sc.text {a b c : Bool} {t : Bytes} {l : List Out} (h1 : scan a t = some b) (h2 : Sc b l c) :
    Sc a (text t :: l) c := by
  have : Sc a [Out.text t] b := fun s hs =>
    ⟨t, by simp [OStream.puts, OStream.put, pad_zero _ hs], rfl, h1⟩
  exact this.append h2

theorem upper_plain {c : UInt8} (h : (∃ d < 16, c = digit d) ∨ c = 120) :
    (c ≠ 10 ∧ c ≠ 61) ∧ upperDigit c ≠ 10 ∧ upperDigit c ≠ 61 := by
  rcases h with ⟨d, hd, rfl⟩ | rfl
  · have : (List.range 16).all (fun d => decide ((digit d ≠ 10 ∧ digit d ≠ 61) ∧
        upperDigit (digit d) ≠ 10 ∧ upperDigit (digit d) ≠ 61)) = true := by decide +kernel
    exact of_decide_eq_true (List.all_eq_true.1 this d (List.mem_range.2 hd))
  · decide

theorem digits_plain (fmt : Format) (n : Nat) : ∀ c ∈ fmt.digits n, c ≠ 10 ∧ c ≠ 61 := by
  have hn : ∀ b, 2 ≤ b → b ≤ 16 → ∀ c ∈ Stream.digits b n, (∃ d < 16, c = digit d) ∨ c = 120 := by
    intro b h1 h2 c hc
    rw [digits_eq b n h1 h2] at hc
    exact Or.inl (numeral_mem_digit h1 h2 hc)
  have h0 : ∀ c ∈ bstr "0x", (∃ d < 16, c = digit d) ∨ c = 120 := by
    intro c hc
    have : c = 48 ∨ c = 120 := by simpa [bstr] using hc
    rcases this with rfl | rfl
    · exact Or.inl ⟨0, by omega, by decide⟩
    · exact Or.inr rfl
  have h1 : ∀ c ∈ bstr "0", (∃ d < 16, c = digit d) ∨ c = 120 := by
    intro c hc
    have : c = 48 := by simpa [bstr] using hc
    subst this
    exact Or.inl ⟨0, by omega, by decide⟩
  have h2 : ∀ c ∈ (match fmt.base with
    | .dec => Stream.digits 10 n
    | .oct => (if fmt.showbase ∧ n ≠ 0 then bstr "0" else []) ++ Stream.digits 8 n
    | .hex => (if fmt.showbase ∧ n ≠ 0 then bstr "0x" else []) ++ Stream.digits 16 n),
      (∃ d < 16, c = digit d) ∨ c = 120 := by
    intro c hc
    split at hc
    · exact hn 10 (by omega) (by omega) c hc
    · rcases List.mem_append.1 hc with hc | hc
      · split at hc
        · exact h1 c hc
        · cases hc
      · exact hn 8 (by omega) (by omega) c hc
    · rcases List.mem_append.1 hc with hc | hc
      · split at hc
        · exact h0 c hc
        · cases hc
      · exact hn 16 (by omega) (by omega) c hc
  intro c hc
  unfold Format.digits at hc
  simp only at hc
  split at hc
  · obtain ⟨d, hd, rfl⟩ := List.mem_map.1 hc
    exact (upper_plain (h2 d hd)).2
  · exact (upper_plain (h2 c hc)).1

theorem toString_plain (n : Nat) : scan false (Stream.toString n) = some false := by
  refine scan_false_plain fun h => ?_
  exact (digits_plain ⟨.dec, false, false, false, 32, 0⟩ n 10 h).1 rfl

theorem Sc.number {c : Bool} (n : Nat) {l : List Out} (h : Sc false l c) : Sc false (number n :: l) c := by
  have : Sc false [Out.number n] false := fun s hs =>
    ⟨s.fmt.digits n, by simp [OStream.puts, OStream.put, pad_zero _ hs], rfl,
      scan_false_plain fun h => (digits_plain _ _ 10 h).1 rfl⟩
  exact this.append h

theorem Sc.octet (st : Bool) (b : UInt8) : Sc st [hex, setw 2, setfill 48, Out.number b.toNat] false := by
  intro s hs
  let fmt : Format := { s.fmt with base := .hex, width := 2, fill := 48 }
  refine ⟨fmt.pad (fmt.digits b.toNat), rfl, rfl, scan_plain _ ?_ ?_⟩
  · intro c hc
    have : c ∈ fmt.digits b.toNat ∨ c = 48 := by
      unfold Format.pad at hc
      simp only at hc
      split at hc <;> rcases List.mem_append.1 hc with hc | hc
      · exact Or.inl hc
      · exact Or.inr (List.eq_of_mem_replicate hc)
      · exact Or.inr (List.eq_of_mem_replicate hc)
      · exact Or.inl hc
    rcases this with h | rfl
    · exact digits_plain _ _ c h
    · decide
  · intro e
    have : (fmt.pad (fmt.digits b.toNat)).length ≥ 2 := by
      unfold Format.pad
      simp only
      split <;> simp <;> (simp only [fmt]; omega)
    rw [e] at this
    simp at this

/-- Octets from any state: whether a line starts after them does not matter. -/
theorem Sc.octets {m : List Out} (hm : ∃ st, Sc false m st) (bs : Bytes) :
    ∀ (st : Bool) (n : Nat), ∃ st', Sc st (octetOuts m n bs) st' := by
  obtain ⟨st1, hm⟩ := hm
  induction bs with
  | nil => intro st n; exact ⟨st, .nil st⟩
  | cons b bs ih =>
      intro st n
      unfold octetOuts
      by_cases hn : (n + 1) % 8 = 0
      · rw [if_pos hn]
        obtain ⟨st', h⟩ := ih st1 (n + 1)
        exact ⟨st', ((Sc.octet st b).append hm).append h⟩
      · rw [if_neg hn]
        obtain ⟨st', h⟩ := ih false (n + 1)
        refine ⟨st', ((Sc.octet st b).append ?_).append h⟩
        exact .text (by decide) (.nil _)

theorem Sc.newline (st : Bool) : Sc st [Out.text (bstr "\n")] true :=
  .text (by cases st <;> decide) (.nil _)

theorem Sc.start {t : Bytes} (ht : scan false t = some true) (fh : FrameHeader) :
    Sc false (startOuts t fh) true := by
  unfold startOuts FrameHeader.outs
  refine .text ht ?_
  refine .append (m := [Out.text (bstr "[PAYLOAD]\n")]) (b := true) ?_ (.text (by decide) (.nil _))
  refine .text (b := true) (by decide) ?_
  repeat
    first
      | exact .nil _
      | refine .text (b := false) (by decide) ?_
        refine .text (toString_plain _) ?_
        refine .text (b := true) (by decide) ?_

theorem Sc.field {p : Bytes} {c : Bool} {l : List Out} (hp : scan true p = some false) (n : Nat)
    (h : Sc true l c) : Sc true (Out.text p :: Out.text (Stream.toString n) :: Out.text (bstr "\n") :: l) c :=
  .text hp (.text (toString_plain n) (.text (b := true) (by decide) h))

theorem Sc.entry {e : HeaderEntry} {l : List Out} (h : entryOuts e = .ok l)
    (hc : ∀ h, e.entry = .header h → NoTitleIn h.1 ∧ NoTitleIn h.2) : Sc true l true := by
  unfold entryOuts at h
  split at h
  · obtain ⟨n, h1, h⟩ := Res.bind_eq_ok.1 h
    cases h
    exact .text (b := false) (by decide) (.text (toString_plain n) (.text (by decide) (.nil _)))
  · obtain ⟨x, h1, h⟩ := Res.bind_eq_ok.1 h
    cases h
    have hx : e.entry = .header x := by
      unfold HeaderEntry.getHeader at h1
      split at h1 <;> first | (cases h1; done) | (cases h1; assumption)
    obtain ⟨h2, h3⟩ := hc x hx
    obtain ⟨a, ha⟩ := scan_free h2
    obtain ⟨b, hb⟩ := scan_free h3
    exact .text (b := false) (by decide) (.text ha (.text (b := false) (by cases a <;> decide)
      (.text hb (.newline b))))

theorem Sc.block {es : HeaderBlock} {l : List Out} (h : blockOuts es = .ok l)
    (hc : NoTitleInBlock es) : Sc true l true := by
  induction es generalizing l with
  | nil => cases h; exact .nil _
  | cons e es ih =>
      unfold blockOuts at h
      obtain ⟨a, h1, h⟩ := Res.bind_eq_ok.1 h
      obtain ⟨b, h2, h⟩ := Res.bind_eq_ok.1 h
      cases h
      exact (Sc.entry h1 (hc e (by simp))).append (ih h2 fun e he => hc e (by simp [he]))

theorem Sc.padding (flags : UInt8) (p : Bytes) : Sc true (paddingOuts flags p) true := by
  unfold paddingOuts
  refine .text (b := true) (by decide) ?_
  split
  · obtain ⟨st, h⟩ := Sc.octets (m := [Out.text (bstr "\n"), Out.text (bstr "    ")])
      ⟨false, .text (b := true) (by decide) (.text (by decide) (.nil _))⟩ p false 0
    exact .text (b := false) (by decide) (h.append (.newline st))
  · exact .nil _

theorem map_plain {k : Nat} {x : Bytes} {m : List (Nat × Bytes)}
    (hm : m.all (fun e => decide (10 ∉ e.2)) = true) (h : mapAt m k = .ok x) : 10 ∉ x := by
  unfold mapAt at h
  split at h
  · rename_i y hy
    cases h
    exact of_decide_eq_true (List.all_eq_true.1 hm _ (lookup_mem hy))
  · cases h

theorem Sc.errorCode {c : UInt32} {l : List Out} (h : errorCodeOuts c = .ok l) : Sc true l true := by
  unfold errorCodeOuts at h
  split at h
  · obtain ⟨x, h1, h⟩ := Res.bind_eq_ok.1 h
    cases h
    exact .text (b := false) (by decide) (.text (scan_false_plain (map_plain (by decide +kernel) h1))
      (.newline _))
  · obtain ⟨x, h1, h⟩ := Res.bind_eq_ok.1 h
    cases h
    exact .text (b := false) (by decide) (.text (scan_false_plain (map_plain (by decide +kernel) h1))
      (.text (b := false) (by decide) (.text (toString_plain _) (.text (by decide) (.nil _)))))

theorem Sc.settings {ps : SfPayload} {l : List Out} (h : settingsOuts ps = .ok l) : Sc true l true := by
  induction ps generalizing l with
  | nil => cases h; exact .nil _
  | cons p ps ih =>
      unfold settingsOuts at h
      obtain ⟨a, h1, h⟩ := Res.bind_eq_ok.1 h
      obtain ⟨b, h2, h⟩ := Res.bind_eq_ok.1 h
      cases h
      refine Sc.append ?_ (ih h2)
      unfold settingOuts at h1
      split at h1
      · obtain ⟨x, h3, h1⟩ := Res.bind_eq_ok.1 h1
        cases h1
        exact .text (b := false) (by decide) (.text (scan_false_plain (map_plain (by decide +kernel) h3))
          (.text (b := false) (by decide) (.text (toString_plain _) (.text (b := false) (by decide)
            (.number _ (.newline _))))))
      · obtain ⟨x, h3, h1⟩ := Res.bind_eq_ok.1 h1
        cases h1
        exact .text (b := false) (by decide) (.text (scan_false_plain (map_plain (by decide +kernel) h3))
          (.text (b := false) (by decide) (.number _ (.newline _))))

theorem Sc.data (d : Bytes) : Sc false (dataOuts d) false := by
  induction d with
  | nil => exact .nil _
  | cons c d ih =>
      unfold dataOuts at *
      rw [List.flatMap_cons]
      split
      · rename_i hc
        subst hc
        exact .text (b := true) (by decide) (.text (b := false) (by decide) ih)
      · rename_i hc
        exact .text (scan_false_plain (by simp; exact fun e => hc e.symm)) ih

theorem Sc.debug {d : Bytes} {l : List Out} (h : debugOuts d = .ok l) (hd : NoTitleIn d) :
    ∃ st, Sc false l st := by
  unfold debugOuts at h
  split at h
  · cases h; exact ⟨_, .nil _⟩
  · obtain ⟨t, h1, h⟩ := Res.bind_eq_ok.1 h
    cases h
    have ht : t <+: d := by
      unfold cString at h1
      split at h1
      · cases h1; exact List.takeWhile_prefix _
      · cases h1
    obtain ⟨st, hs⟩ := scan_free (t := t) fun hi => hd (hi.trans ht.isInfix)
    exact ⟨st, .text hs (.nil _)⟩

/-- The text of a frame: only its first line starts with an equals sign, and it ends a line. -/
theorem Sc.frame [Platform] {f : Frame} {l : List Out} (h : f.outs = .ok l) (hf : NoForgedTitle f) :
    Sc false l true := by
  have shown : ∀ (b : Bool) (n : Nat),
      scan false (if b = true then Stream.toString n else []) = some false := by
    intro b n; cases b
    · rfl
    · exact toString_plain n
  cases f with
  | data f =>
      obtain ⟨⟨k, d, p⟩, hb, h⟩ := Res.bind_eq_ok.1 (show f.outs = .ok l from h)
      cases h
      obtain ⟨st, ho⟩ := Sc.octets (m := [Out.text (bstr "\n              ")])
        ⟨false, .text (by decide +kernel) (.nil _)⟩ p true 0
      refine ((((((Sc.start (by decide +kernel) f.header).append (.field (by decide +kernel) k.toNat
        (.text (b := true) (by decide +kernel) (.text (b := false) (by decide +kernel) (.nil _))))).append
        (Sc.data d)).append (.text (b := true) (by decide +kernel) (.text (b := true) (by decide +kernel) (.nil _)))).append
        ho).append (.newline st))
  | headers f =>
      obtain ⟨b, hb, h⟩ := Res.bind_eq_ok.1 (show f.outs = .ok l from h)
      cases h
      have hp := Sc.padding f.header.flags f.padding
      refine (((Sc.start (by decide +kernel) f.header).append ?_).append (.block hb hf)).append hp
      exact .text (b := false) (by decide +kernel) (.text (shown _ _) (.text (b := true) (by decide +kernel)
        (.text (b := false) (by decide +kernel) (.text (shown _ _) (.text (b := true) (by decide +kernel)
        (.text (b := false) (by decide +kernel) (.text (shown _ _) (.text (b := true) (by decide +kernel)
        (.text (by decide +kernel) (.nil _))))))))))
  | priority f =>
      cases h
      unfold PriorityFrame.outs
      exact (Sc.start (by decide +kernel) f.header).append (.field (by decide +kernel) _ (.field (by decide +kernel) _
        (.field (by decide +kernel) _ (.nil _))))
  | rstStream f =>
      obtain ⟨b, hb, h⟩ := Res.bind_eq_ok.1 (show f.outs = .ok l from h)
      cases h
      exact (Sc.start (by decide +kernel) f.header).append (.errorCode hb)
  | settings f =>
      obtain ⟨b, hb, h⟩ := Res.bind_eq_ok.1 (show f.outs = .ok l from h)
      cases h
      exact (Sc.start (by decide +kernel) f.header).append (.settings hb)
  | pushPromise f =>
      obtain ⟨b, hb, h⟩ := Res.bind_eq_ok.1 (show f.outs = .ok l from h)
      cases h
      have hp := Sc.padding f.header.flags f.payload.padding
      exact (((Sc.start (by decide +kernel) f.header).append (.field (by decide +kernel) _ (.field (by decide +kernel) _
        (.text (b := true) (by decide +kernel) (.nil _))))).append (.block hb hf)).append hp
  | ping f =>
      cases h
      unfold PingFrame.outs
      obtain ⟨st, ho⟩ := Sc.octets (m := [Out.text (bstr "\n")])
        ⟨true, .text (by decide +kernel) (.nil _)⟩ f.opaqueData true 0
      exact ((Sc.start (by decide +kernel) f.header).append ho).append (.newline st)
  | goaway f =>
      obtain ⟨b, hb, h⟩ := Res.bind_eq_ok.1 (show f.outs = .ok l from h)
      obtain ⟨c, hc, h⟩ := Res.bind_eq_ok.1 h
      cases h
      obtain ⟨st, hs⟩ := Sc.debug hc hf
      exact ((((Sc.start (by decide +kernel) f.header).append (.field (by decide +kernel) _
        (.field (by decide +kernel) _ (.nil _)))).append (.errorCode hb)).append
          (.text (b := false) (by decide +kernel) hs)).append (.newline st)
  | windowUpdate f =>
      cases h
      unfold WindowUpdateFrame.outs
      exact (Sc.start (by decide +kernel) f.header).append (.field (by decide +kernel) _ (.field (by decide +kernel) _ (.nil _)))
  | continuation f =>
      obtain ⟨b, hb, h⟩ := Res.bind_eq_ok.1 (show f.outs = .ok l from h)
      cases h
      exact (Sc.start (by decide +kernel) f.header).append (.text (b := true) (by decide +kernel) (.block hb hf))
  | raw f =>
      cases h
      unfold RawFrame.outs
      obtain ⟨st, ho⟩ := Sc.octets (m := [Out.text (bstr "\n")])
        ⟨true, .text (by decide +kernel) (.nil _)⟩ f.payload true 0
      exact ((Sc.start (by decide +kernel) f.header).append ho).append (.newline st)

/-- A text of one frame in a log. -/
def OneFrame (t : Bytes) : Prop := ascii "=== " <+: t ∧ scan false t = some true

theorem OneFrame.ends {t : Bytes} (h : OneFrame t) : t ≠ [] ∧ t.getLast? = some 10 := by
  have hn : t ≠ [] := by
    rintro rfl
    exact absurd h.1.length_le (by decide)
  exact ⟨hn, of_decide_eq_true (scan_last h.2 hn).symm⟩

theorem title_head {b c : Bytes} (h : ascii "=== " <+: b) (hc : c <+: b) (hn : c ≠ []) :
    c.head? = some 61 := by
  obtain ⟨x, rfl⟩ := h
  obtain ⟨y, e⟩ := hc
  cases c with
  | nil => exact absurd rfl hn
  | cons z c =>
      have : z = 61 := (List.cons.inj e).1
      simp [this]

theorem scan_true_head {c : Bytes} {st : Bool} (h : scan true c = some st) : c.head? ≠ some 61 := by
  cases c with
  | nil => simp
  | cons z c =>
      intro e
      simp only [List.head?_cons, Option.some.injEq] at e
      subst e
      simp [scan, scanChar] at h

/-- Inside the text of a frame no line starts like a title. -/
theorem OneFrame.inside {a c : Bytes} (h : OneFrame (a ++ c)) (ha : a ≠ [])
    (hl : a.getLast? = some 10) : c.head? ≠ some 61 := by
  have h2 := h.2
  rw [scan_append] at h2
  cases hs : scan false a with
  | none => rw [hs] at h2; cases h2
  | some st =>
      rw [hs, Option.bind_some] at h2
      have := scan_last hs ha
      rw [hl] at this
      simp only [decide_true] at this
      subst this
      exact scan_true_head h2

theorem cuts {ts : List Bytes} (h : ∀ t ∈ ts, OneFrame t) (a b : Bytes) (e : ts.flatten = a ++ b) :
    (LineStarts a ∧ ascii "=== " <+: b) ↔ ∃ k < ts.length, a = (ts.take k).flatten := by
  induction ts generalizing a with
  | nil =>
      simp only [List.flatten_nil] at e
      have := List.append_eq_nil_iff.1 e.symm
      constructor
      · rintro ⟨-, hb⟩
        rw [this.2] at hb
        exact absurd hb.length_le (by decide)
      · rintro ⟨k, hk, -⟩; simp at hk
  | cons t ts ih =>
      have ht := h t (by simp)
      have ih := ih fun t ht => h t (by simp [ht])
      rw [List.flatten_cons] at e
      constructor
      · rintro ⟨hl, hb⟩
        by_cases ha : a = []
        · exact ⟨0, by simp, by simpa using ha⟩
        rcases List.append_eq_append_iff.1 e with ⟨c, e1, e2⟩ | ⟨c, e1, e2⟩
        · -- the cut is behind this frame
          have hc : LineStarts c := by
            by_cases hcn : c = []
            · exact Or.inl hcn
            · right
              have := hl.resolve_left ha
              rwa [e1, List.getLast?_append_of_ne_nil _ hcn] at this
          obtain ⟨k, hk, e3⟩ := (ih c e2).1 ⟨hc, hb⟩
          exact ⟨k + 1, by simpa using hk, by rw [e1, e3]; simp⟩
        · by_cases hcn : c = []
          · subst hcn
            simp only [List.append_nil, List.nil_append] at e1 e2
            have hts : ts ≠ [] := by
              rintro rfl
              rw [e2] at hb
              exact absurd hb.length_le (by decide)
            refine ⟨1, ?_, by simp [e1]⟩
            have := List.length_pos_of_ne_nil hts
            simp; omega
          · rw [e1] at ht
            exact absurd (title_head hb ⟨ts.flatten, e2.symm⟩ hcn) (ht.inside ha (hl.resolve_left ha))
      · rintro ⟨k, hk, rfl⟩
        cases k with
        | zero =>
            simp only [List.take_zero, List.flatten_nil, List.nil_append] at e
            exact ⟨Or.inl (by simp), e ▸ ht.1.trans (List.prefix_append _ _)⟩
        | succ k =>
            simp only [List.take_succ_cons, List.flatten_cons, List.append_assoc,
              List.append_cancel_left_eq] at e
            obtain ⟨h1, h2⟩ := (ih _ e).2 ⟨k, by simpa using hk, rfl⟩
            refine ⟨Or.inr ?_, h2⟩
            rw [List.take_succ_cons, List.flatten_cons]
            rcases h1 with h1 | h1
            · rw [h1, List.append_nil]; exact ht.ends.2
            · rw [List.getLast?_append_of_ne_nil _ (by rintro hc; rw [hc] at h1; cases h1)]
              exact h1

theorem first_same {t u : Bytes} {ts us : List Bytes} (ht : OneFrame t) (hu : OneFrame u)
    (hts : ∀ t ∈ ts, OneFrame t) (hus : ∀ t ∈ us, OneFrame t)
    (e : t ++ ts.flatten = u ++ us.flatten) : t = u := by
  have key : ∀ {t u : Bytes} {ts us : List Bytes}, OneFrame t → OneFrame u →
      (∀ t ∈ ts, OneFrame t) → ∀ c, u = t ++ c → ts.flatten = c ++ us.flatten → c = [] := by
    intro t u ts us ht hu hts c e1 e2
    by_contra hc
    cases ts with
    | nil => exact hc (List.append_eq_nil_iff.1 e2.symm).1
    | cons v ts =>
        have hv := (hts v (by simp)).1
        rw [List.flatten_cons] at e2
        have := title_head (hv.trans (List.prefix_append v ts.flatten)) ⟨us.flatten, e2.symm⟩ hc
        rw [e1] at hu
        exact hu.inside ht.ends.1 ht.ends.2 this
  rcases List.append_eq_append_iff.1 e with ⟨c, e1, e2⟩ | ⟨c, e1, e2⟩
  · have := key ht hu hts c e1 e2
    rw [e1, this, List.append_nil]
  · have := key hu ht hus c e1 e2
    rw [e1, this, List.append_nil]

theorem texts_same {ts us : List Bytes} (h1 : ∀ t ∈ ts, OneFrame t) (h2 : ∀ t ∈ us, OneFrame t)
    (e : ts.flatten = us.flatten) : ts = us := by
  induction ts generalizing us with
  | nil =>
      cases us with
      | nil => rfl
      | cons u us =>
          exfalso
          rw [List.flatten_nil, List.flatten_cons] at e
          exact (h2 u (by simp)).ends.1 (List.append_eq_nil_iff.1 e.symm).1
  | cons t ts ih =>
      cases us with
      | nil =>
          exfalso
          rw [List.flatten_nil, List.flatten_cons] at e
          exact (h1 t (by simp)).ends.1 (List.append_eq_nil_iff.1 e).1
      | cons u us =>
          simp only [List.flatten_cons] at e
          have := first_same (h1 t (by simp)) (h2 u (by simp)) (fun t ht => h1 t (by simp [ht]))
            (fun t ht => h2 t (by simp [ht])) e
          subst this
          rw [ih (fun t ht => h1 t (by simp [ht])) (fun t ht => h2 t (by simp [ht]))
            (List.append_cancel_left e)]

end Mh2c
