/-
Helper lemmas on the printed text.
-/
import Verif.Spec.Text
import Verif.Proofs.Dump

namespace Mh2c

open Rfc Mh2c.Stream

theorem digitChar_eq (d : Nat) (h : d < 16) : digitChar d = digit d := by
  have : (List.range 16).all (fun d => digitChar d == digit d) = true := by decide +kernel
  exact eq_of_beq (List.all_eq_true.1 this d (List.mem_range.2 h))

theorem digitsAux_eq (b : Nat) (hb : 1 < b) (hb2 : b ≤ 16) :
    ∀ fuel n, n < fuel → digitsAux fuel b n = numeral b n := by
  intro fuel
  induction fuel with
  | zero => intro n h; omega
  | succ fuel ih =>
      intro n h
      unfold digitsAux
      by_cases hn : n < b
      · rw [if_pos hn, digitChar_eq _ (by omega)]
        unfold numeral
        by_cases h0 : n = 0
        · subst h0; rfl
        · rw [if_neg h0, Nat.digits_of_lt _ _ h0 hn]; rfl
      · have hd : n / b < n := Nat.div_lt_self (by omega) hb
        have hd0 : n / b ≠ 0 := by
          intro hc
          have := (Nat.div_eq_zero_iff).1 hc
          omega
        have hm : n % b < b := Nat.mod_lt _ (by omega)
        rw [if_neg hn, ih _ (by omega), digitChar_eq _ (by omega)]
        unfold numeral
        rw [if_neg hd0, if_neg (by omega), Nat.digits_def' hb (by omega : 0 < n)]
        simp

theorem digits_eq (b n : Nat) (hb : 1 < b) (hb2 : b ≤ 16) : digits b n = numeral b n :=
  digitsAux_eq b hb hb2 _ _ (by omega)

theorem toString_eq (n : Nat) : Stream.toString n = decimal n := digits_eq 10 n (by omega) (by omega)

theorem hexByte_eq (b : UInt8) (s : Stream) : s.hexByte b = ⟨s.out ++ octet b, true⟩ := by
  have h : ∀ b : UInt8, List.replicate (2 - (digits 16 b.toNat).length) 48 ++ digits 16 b.toNat =
      octet b := fun b =>
    of_decide_eq_true <| u8_all (p := fun b => decide
      (List.replicate (2 - (digits 16 b.toNat).length) 48 ++ digits 16 b.toNat = octet b))
      (by decide +kernel) b
  unfold Stream.hexByte
  simp only [List.append_assoc, h]

theorem hexBytes_eq (nl : Bytes) (i : Nat) (bs : Bytes) (s : Stream) :
    (hexBytes nl i bs s).out = s.out ++ octetsFrom nl i bs := by
  induction bs generalizing i s with
  | nil => simp [hexBytes, octetsFrom]
  | cons b bs ih =>
      unfold hexBytes octetsFrom
      rw [ih, hexByte_eq]
      unfold Stream.text
      simp only [Nat.dvd_iff_mod_eq_zero, List.append_assoc]
      rfl

theorem start_eq (f : Frame) (t : Bytes) (ht : t = title f ++ [10]) (s : Stream) :
    (dumpStart t f.header s).out = s.out ++ startText f := by
  subst ht
  unfold dumpStart FrameHeader.dump startText headerLines Stream.text
  simp only [toString_eq, unlines, List.flatMap_cons, List.flatMap_nil, List.cons_append, List.append_assoc,
    List.nil_append]
  rfl

theorem entry_eq {e : HeaderEntry} {s s' : Stream} (h : dumpEntry e s = .ok s') :
    s'.out = s.out ++ (entryLine e ++ [10]) := by
  obtain ⟨p, v⟩ := e
  unfold dumpEntry at h
  split at h
  · obtain ⟨n, h1, h2⟩ := Res.bind_eq_ok.1 h
    cases v with
    | header x => cases h1
    | maxSize m =>
        cases h1
        rw [← Res.ok.inj h2]
        simp only [Stream.text, toString_eq, entryLine, List.append_assoc]
        rfl
  · obtain ⟨n, h1, h2⟩ := Res.bind_eq_ok.1 h
    cases v with
    | header x =>
        cases h1
        rw [← Res.ok.inj h2]
        simp only [Stream.text, entryLine, List.append_assoc]
        rfl
    | maxSize m => cases h1

theorem block_eq {es : HeaderBlock} {s s' : Stream} (h : dumpBlock es s = .ok s') :
    s'.out = s.out ++ unlines (es.map entryLine) := by
  induction es generalizing s with
  | nil => rw [← Res.ok.inj h]; simp [unlines]
  | cons e es ih =>
      unfold dumpBlock at h
      obtain ⟨s1, h1, h2⟩ := Res.bind_eq_ok.1 h
      rw [ih h2, entry_eq h1]
      simp [unlines]

theorem padding_eq (flags : UInt8) (p : Bytes) (s : Stream) :
    (dumpPadding flags p s).out = s.out ++ paddingText flags p := by
  unfold dumpPadding paddingText
  rw [padded_ite]
  split
  · simp only [Stream.text, hexBytes_eq, List.append_assoc]
    rfl
  · simp only [Stream.text, List.append_nil]
    rfl

theorem error_lookup (code : Nat) (h : code < 14) (h2 : code ≠ 2) :
    errorCodesStrMap.lookup code = some (errorText code) := by
  have : (List.range 14).all (fun c => c == 2 || errorCodesStrMap.lookup c == some (errorText c)) =
      true := by decide +kernel
  have := List.all_eq_true.1 this code (List.mem_range.2 h)
  simp only [Bool.or_eq_true, beq_iff_eq] at this
  exact this.resolve_left h2

theorem error_unknown (code : Nat) (h : ¬ code < 14) :
    errorText code = ascii "UNKNOWN_ERROR(" ++ decimal code ++ ascii ")" := by
  unfold errorText
  rw [List.getElem?_eq_none (by simp [errorNames]; omega)]

theorem error_eq {code : UInt32} {s s' : Stream} (h2 : code ≠ 2) (h : dumpErrorCode code s = .ok s') :
    s'.out = s.out ++ unlines [ascii "  Error Code: " ++ errorText code.toNat] := by
  have h2' : code.toNat ≠ 2 := fun hc => h2 (UInt32.toNat_inj.1 hc)
  unfold dumpErrorCode at h
  split at h
  · rename_i hlt
    unfold mapAt at h
    rw [error_lookup _ hlt h2'] at h
    rw [← Res.ok.inj h]
    simp only [Stream.text, unlines, List.flatMap_cons, List.flatMap_nil, List.append_assoc,
      List.append_nil]
    rfl
  · rename_i hlt
    rw [error_unknown _ hlt, ← Res.ok.inj h]
    simp only [Stream.text, unlines, List.flatMap_cons, List.flatMap_nil, List.append_assoc,
      List.append_nil, toString_eq]
    rfl

theorem setting_lookup (id : Nat) (h0 : id ≠ 0) (h : id < 7) (h3 : id ≠ 3) :
    sfParameterStrMap.lookup id = some (settingText id) := by
  have : (List.range 7).all (fun c => c == 0 || c == 3 ||
      sfParameterStrMap.lookup c == some (settingText c)) = true := by decide +kernel
  have := List.all_eq_true.1 this id (List.mem_range.2 h)
  simp only [Bool.or_eq_true, beq_iff_eq] at this
  exact this.resolve_left (by omega)

theorem setting_unknown (id : Nat) (h : id < 1 ∨ id ≥ 7) :
    settingText id = ascii "UNKNOWN(" ++ decimal id ++ ascii ")" := by
  unfold settingText
  cases id with
  | zero => rfl
  | succ k =>
      simp only
      rw [List.getElem?_eq_none (by simp [settingNames]; omega)]

theorem setting_eq {p : UInt16 × UInt32} {s s' : Stream} (h3 : p.1 ≠ 3)
    (h : dumpSetting p s = .ok s') :
    s'.hex = s.hex ∧ s'.out = s.out ++ (ascii "  " ++ settingText p.1.toNat ++ ascii ": " ++
      numeral (if s.hex then 16 else 10) p.2.toNat ++ [10]) := by
  have h3' : p.1.toNat ≠ 3 := fun hc => h3 (UInt16.toNat_inj.1 hc)
  have hb : digits (if s.hex then 16 else 10) p.2.toNat =
      numeral (if s.hex then 16 else 10) p.2.toNat :=
    digits_eq _ _ (by split <;> omega) (by split <;> omega)
  unfold dumpSetting at h
  split at h
  · rename_i hid
    rw [setting_unknown _ hid, ← Res.ok.inj h]
    refine ⟨rfl, ?_⟩
    simp only [Stream.text, Stream.number, List.append_assoc, toString_eq, hb]
    rfl
  · rename_i hid
    unfold mapAt at h
    rw [setting_lookup _ (by omega) (by omega) h3'] at h
    rw [← Res.ok.inj h]
    refine ⟨rfl, ?_⟩
    simp only [Stream.text, Stream.number, List.append_assoc, hb]
    rfl

theorem settings_eq {ps : SfPayload} {s s' : Stream} (h3 : ∀ p ∈ ps, p.1 ≠ 3)
    (h : dumpSettings ps s = .ok s') :
    s'.out = s.out ++ unlines (ps.map fun p => ascii "  " ++ settingText p.1.toNat ++ ascii ": " ++
      numeral (if s.hex then 16 else 10) p.2.toNat) := by
  induction ps generalizing s with
  | nil => rw [← Res.ok.inj h]; simp [unlines]
  | cons p ps ih =>
      unfold dumpSettings at h
      obtain ⟨s1, h1, h2⟩ := Res.bind_eq_ok.1 h
      obtain ⟨e1, e2⟩ := setting_eq (h3 p (by simp)) h1
      rw [ih (fun q hq => h3 q (List.mem_cons_of_mem _ hq)) h2, e2, e1]
      simp [unlines]

theorem indent_eq (d : Bytes) : indentNewlines d = indented d := by
  unfold indentNewlines indented
  congr 1
  funext c
  split
  · rename_i h; subst h; rfl
  · rfl

end Mh2c
