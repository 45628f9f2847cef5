/-
Lemmas about the settings map and the SETTINGS parser.
-/
import Verif.Spec.FrameApi
import Verif.Proofs.Bits

namespace Mh2c

open Rfc

theorem insert_keys {id : UInt16} {v : UInt32} {p : SfPayload} {x : UInt16 × UInt32}
    (h : x ∈ p.insert id v) : x = (id, v) ∨ x ∈ p := by
  induction p with
  | nil => simpa [SfPayload.insert] using h
  | cons a p ih =>
      obtain ⟨k, w⟩ := a
      unfold SfPayload.insert at h
      split at h
      · simpa using h
      · split at h
        · exact Or.inr h
        · rcases List.mem_cons.1 h with h | h
          · exact Or.inr (by simp [h])
          · rcases ih h with h | h
            · exact Or.inl h
            · exact Or.inr (List.mem_cons_of_mem _ h)

theorem insert_isMap {p : SfPayload} (h : IsMap p) (id : UInt16) (v : UInt32) :
    IsMap (p.insert id v) := by
  induction p with
  | nil => simp [SfPayload.insert, IsMap]
  | cons a p ih =>
      obtain ⟨k, w⟩ := a
      have h' := List.pairwise_cons.1 h
      unfold SfPayload.insert
      split
      · rename_i hk
        refine List.pairwise_cons.2 ⟨fun x hx => ?_, h⟩
        rcases List.mem_cons.1 hx with rfl | hx
        · exact hk
        · exact UInt16.lt_trans hk (h'.1 x hx)
      · split
        · exact h
        · rename_i h1 h2
          refine List.pairwise_cons.2 ⟨fun x hx => ?_, ih h'.2⟩
          rcases insert_keys hx with rfl | hx
          · rcases UInt16.lt_or_lt_of_ne (fun e => h2 e) with h3 | h3
            · exact absurd h3 h1
            · exact h3
          · exact h'.1 x hx

/-- Inserting keeps a value that is already there. -/
theorem insert_lookup {p : SfPayload} (hp : IsMap p) (id : UInt16) (v : UInt32) (k : UInt16) :
    (p.insert id v).lookup k = (p.lookup k).or (if k = id then some v else none) := by
  induction p with
  | nil =>
      by_cases h : k = id
      · simp [SfPayload.insert, h]
      · have : (k == id) = false := by simp [h]
        simp [SfPayload.insert, List.lookup, this, h]
  | cons a p ih =>
      obtain ⟨k', w⟩ := a
      have h' := List.pairwise_cons.1 hp
      unfold SfPayload.insert
      split
      · rename_i hlt
        by_cases hk : k = id
        · subst hk
          have h1 : (((k', w) :: p).lookup k) = none := by
            rw [List.lookup_eq_none_iff]
            intro x hx
            rw [bne_iff_ne]
            rintro rfl
            rcases List.mem_cons.1 hx with rfl | hx
            · exact absurd hlt (UInt16.lt_irrefl _)
            · exact absurd (UInt16.lt_trans hlt (h'.1 x hx)) (UInt16.lt_irrefl _)
          rw [h1]; simp
        · have : (k == id) = false := by simp [hk]
          conv_lhs => rw [List.lookup, this]
          simp [hk]
      · split
        · rename_i h1 h2
          subst h2
          by_cases hk : k = id
          · subst hk; simp
          · simp [hk]
        · rename_i h1 h2
          by_cases hk : k = k'
          · subst hk; simp
          · have : (k == k') = false := by simp [hk]
            conv_lhs => rw [List.lookup, this]
            conv_rhs => rw [List.lookup, this]
            exact ih h'.2

theorem foldl_isMap (ps : List (UInt16 × UInt32)) {acc : SfPayload} (h : IsMap acc) :
    IsMap (ps.foldl (fun m p => SfPayload.insert p.1 p.2 m) acc) := by
  induction ps generalizing acc with
  | nil => exact h
  | cons a ps ih => exact ih (insert_isMap h a.1 a.2)

theorem foldl_lookup (ps : List (UInt16 × UInt32)) {acc : SfPayload} (h : IsMap acc) (k : UInt16) :
    (ps.foldl (fun m p => SfPayload.insert p.1 p.2 m) acc).lookup k =
      (acc.lookup k).or (ps.lookup k) := by
  induction ps generalizing acc with
  | nil => simp
  | cons a ps ih =>
      obtain ⟨k', w⟩ := a
      rw [List.foldl_cons, ih (insert_isMap h _ _), insert_lookup h, Option.or_assoc]
      congr 1
      by_cases hk : k = k'
      · subst hk; simp
      · have : (k == k') = false := by simp [hk]
        rw [if_neg hk, List.lookup, this]; simp

/-- Two maps with the same lookups are equal. -/
theorem isMap_ext {p q : SfPayload} (hp : IsMap p) (hq : IsMap q)
    (h : ∀ k, p.lookup k = q.lookup k) : p = q := by
  induction p generalizing q with
  | nil =>
      cases q with
      | nil => rfl
      | cons b q => have := h b.1; rw [List.lookup_cons_self] at this; cases this
  | cons a p ih =>
      obtain ⟨k, v⟩ := a
      have hp' := List.pairwise_cons.1 hp
      cases q with
      | nil => have := h k; rw [List.lookup_cons_self] at this; cases this
      | cons b q =>
          obtain ⟨k', v'⟩ := b
          have hq' := List.pairwise_cons.1 hq
          have hmem : ∀ {l : SfPayload} {x : UInt16} {y : UInt32}, l.lookup x = some y → (x, y) ∈ l := by
            intro l x y hl
            induction l with
            | nil => simp at hl
            | cons c l ihl =>
                obtain ⟨c1, c2⟩ := c
                by_cases hc : x = c1
                · subst hc; simp at hl; simp [hl]
                · have : (x == c1) = false := by simp [hc]
                  rw [List.lookup, this] at hl
                  exact List.mem_cons_of_mem _ (ihl hl)
          have hk : k = k' := by
            have h1 := h k
            have h2 := h k'
            rw [List.lookup_cons_self] at h1 h2
            have m1 := hmem h1.symm
            have m2 := hmem h2
            rcases List.mem_cons.1 m1 with e | m1
            · injection e
            · rcases List.mem_cons.1 m2 with e | m2
              · injection e with e _; exact e.symm
              · exact absurd (UInt16.lt_trans (hq'.1 _ m1) (hp'.1 _ m2)) (UInt16.lt_irrefl _)
          subst hk
          have hv : v = v' := by
            have h1 := h k
            rw [List.lookup_cons_self, List.lookup_cons_self] at h1
            exact Option.some.inj h1
          subst hv
          congr 1
          refine ih hp'.2 hq'.2 fun x => ?_
          by_cases hx : x = k
          · subst hx
            have hn : ∀ {l : SfPayload}, (∀ y ∈ l, x < y.1) → l.lookup x = none := by
              intro l hl
              rw [List.lookup_eq_none_iff]
              intro y hy
              rw [bne_iff_ne]
              intro e
              have := hl y hy
              rw [← e] at this
              exact UInt16.lt_irrefl _ this
            rw [hn hp'.1, hn hq'.1]
          · have := h x
            have hb : (x == k) = false := by simp [hx]
            rw [List.lookup, hb, List.lookup, hb] at this
            exact this

theorem isMap_length {p : SfPayload} (h : IsMap p) : p.length ≤ 65536 := by
  have key : ∀ (lo : Nat) (q : SfPayload), IsMap q → (∀ x ∈ q, lo ≤ x.1.toNat) → lo ≤ 65536 →
      q.length + lo ≤ 65536 := by
    intro lo q
    induction q generalizing lo with
    | nil => intro _ _ h; simpa using h
    | cons a q ih =>
        intro hm hlo _
        have hm' := List.pairwise_cons.1 hm
        have h1 := hlo a List.mem_cons_self
        have h2 := a.1.toNat_lt
        have := ih (a.1.toNat + 1) hm'.2 (fun x hx => by
          have := hm'.1 x hx
          rw [UInt16.lt_iff_toNat_lt] at this
          omega) (by omega)
        simp only [List.length_cons]
        omega
  have := key 0 p h (by simp) (by omega)
  omega

@[simp] theorem settingsOctets_length (ps : List (UInt16 × UInt32)) :
    (settingsOctets ps).length = 6 * ps.length := by
  induction ps with
  | nil => rfl
  | cons a ps ih =>
      rw [settingsOctets, List.flatMap_cons, List.length_append, ← settingsOctets, ih]
      simp [settingOctets]; omega

/-- The parser on well-formed payloads. -/
theorem parseSettings_ok (ps : List (UInt16 × UInt32)) (acc : SfPayload) :
    parseSettings (settingsOctets ps) acc =
      .ok (ps.foldl (fun m p => SfPayload.insert p.1 p.2 m) acc) := by
  induction ps generalizing acc with
  | nil => rw [settingsOctets, List.flatMap_nil, parseSettings]; rfl
  | cons a ps ih =>
      obtain ⟨k, v⟩ := a
      have hd : settingsOctets ((k, v) :: ps) = be 2 k.toNat ++ (be 4 v.toNat ++ settingsOctets ps) := by
        simp [settingsOctets, settingOctets]
      have h1 : bytes2integral 2 (settingsOctets ((k, v) :: ps)) = .ok k.toNat := by
        rw [hd, bytes2integral_ok (by omega) (by simp), List.take_left' (be_length _ _), beValue_be,
          Nat.mod_eq_of_lt (b := 256 ^ 2) (k.toNat_lt)]
      have h2 : (settingsOctets ((k, v) :: ps)).drop 2 = be 4 v.toNat ++ settingsOctets ps := by
        rw [hd, List.drop_left' (be_length _ _)]
      have h3 : bytes2integral 4 (be 4 v.toNat ++ settingsOctets ps) = .ok v.toNat := by
        rw [bytes2integral_ok (by omega) (by simp), List.take_left' (be_length _ _), beValue_be,
          Nat.mod_eq_of_lt (b := 256 ^ 4) (v.toNat_lt)]
      cases hc : settingsOctets ((k, v) :: ps) with
      | nil => have := congrArg List.length hc; simp at this
      | cons b bs =>
          rw [hc] at h1 h2
          rw [parseSettings]
          simp only [h1, Res.ok_bind, h2, h3, List.drop_left' (be_length 4 v.toNat), ih]
          simp

end Mh2c
