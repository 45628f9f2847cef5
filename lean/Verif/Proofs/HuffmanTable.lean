/-
Helper lemmas: the Huffman code of the specification is a complete prefix code, and both tables of
the model are this code.
-/
import Verif.Proofs.HuffmanBits
import Verif.Model.Huffman

namespace Mh2c

open Rfc

/-- The entries cover the 30-bit numbers from `a` to `b` without gap or overlap. -/
def Tiles : List (Nat × Nat × Nat) → Nat → Nat → Prop
  | [], a, b => a = b
  | (_, n, v) :: rest, a, b =>
      n ≤ 30 ∧ 5 ≤ n ∧ v * 2 ^ (30 - n) = a ∧ Tiles rest (a + 2 ^ (30 - n)) b

instance Tiles.dec : (l : List (Nat × Nat × Nat)) → (a b : Nat) → Decidable (Tiles l a b)
  | [], a, b => inferInstanceAs (Decidable (a = b))
  | (_, n, _) :: rest, a, b =>
      have := Tiles.dec rest (a + 2 ^ (30 - n)) b
      inferInstanceAs (Decidable (_ ∧ _ ∧ _ ∧ _))

theorem Tiles.le {l : List (Nat × Nat × Nat)} {a b : Nat} (h : Tiles l a b) : a ≤ b := by
  induction l generalizing a with
  | nil => exact le_of_eq h
  | cons e rest ih =>
      obtain ⟨s, n, v⟩ := e
      have h1 := ih h.2.2.2
      exact le_trans (Nat.le_add_right _ _) h1

/-- The 30-bit numbers starting with the code of an entry. -/
def Covers (e : Nat × Nat × Nat) (x : Nat) : Prop :=
  e.2.2 * 2 ^ (30 - e.2.1) ≤ x ∧ x < (e.2.2 + 1) * 2 ^ (30 - e.2.1)

theorem Tiles.bounds {l : List (Nat × Nat × Nat)} {a b : Nat} (h : Tiles l a b)
    {e : Nat × Nat × Nat} (he : e ∈ l) :
    e.2.1 ≤ 30 ∧ 5 ≤ e.2.1 ∧ a ≤ e.2.2 * 2 ^ (30 - e.2.1) ∧ (e.2.2 + 1) * 2 ^ (30 - e.2.1) ≤ b := by
  induction l generalizing a with
  | nil => simp at he
  | cons d rest ih =>
      obtain ⟨s, n, v⟩ := d
      obtain ⟨h1, h5, h2, h3⟩ := h
      rcases List.mem_cons.1 he with rfl | he
      · refine ⟨h1, h5, le_of_eq h2.symm, ?_⟩
        have := h3.le
        rw [Nat.add_mul, Nat.one_mul, h2]
        exact this
      · obtain ⟨g1, g5, g2, g3⟩ := ih h3 he
        exact ⟨g1, g5, le_trans (Nat.le_add_right _ _) g2, g3⟩

theorem Tiles.exists {l : List (Nat × Nat × Nat)} {a b x : Nat} (h : Tiles l a b)
    (hx : a ≤ x) (hb : x < b) : ∃ e ∈ l, Covers e x := by
  induction l generalizing a with
  | nil => simp only [Tiles] at h; omega
  | cons d rest ih =>
      obtain ⟨s, n, v⟩ := d
      obtain ⟨h1, -, h2, h3⟩ := h
      by_cases hc : x < a + 2 ^ (30 - n)
      · refine ⟨(s, n, v), by simp, ?_, ?_⟩
        · show v * 2 ^ (30 - n) ≤ x
          omega
        · show x < (v + 1) * 2 ^ (30 - n)
          rw [Nat.add_mul, Nat.one_mul, h2]; exact hc
      · obtain ⟨e, he, hcov⟩ := ih h3 (by omega)
        exact ⟨e, by simp [he], hcov⟩

theorem Tiles.unique {l : List (Nat × Nat × Nat)} {a b x : Nat} (h : Tiles l a b)
    {e f : Nat × Nat × Nat} (he : e ∈ l) (hf : f ∈ l) (hex : Covers e x) (hfx : Covers f x) :
    e = f := by
  induction l generalizing a with
  | nil => simp at he
  | cons d rest ih =>
      have hd := h
      obtain ⟨s, n, v⟩ := d
      obtain ⟨h1, -, h2, h3⟩ := h
      have key : ∀ g ∈ rest, Covers g x → Covers (s, n, v) x → False := by
        intro g hg hgx hdx
        obtain ⟨-, -, g2, -⟩ := h3.bounds hg
        have := hgx.1
        have h4 : x < (v + 1) * 2 ^ (30 - n) := hdx.2
        rw [Nat.add_mul, Nat.one_mul, h2] at h4
        omega
      rcases List.mem_cons.1 he with rfl | he <;> rcases List.mem_cons.1 hf with rfl | hf
      · rfl
      · exact (key f hf hfx hex).elim
      · exact (key e he hex hfx).elim
      · exact ih h3 he hf

/-! ### Kernel evaluation of the tables -/

theorem huffTable_tiles : Tiles huffTable 0 (2 ^ 30) := by decide +kernel

theorem huffTable_keys : huffTable.all (fun e => huffTable.lookup e.1 == some e.2 &&
    decide (e.1 < 257)) = true := by
  decide +kernel

theorem huffTable_total : (List.range 257).all (fun s => (huffTable.lookup s).isSome) = true := by
  decide +kernel

theorem encodeTable_check :
    huffTable.all (fun e => Huffman.encodeTable.lookup e.1 == some (e.2.2, e.2.1)) = true := by
  decide +kernel

theorem decodeTable_sound : Huffman.decodeTable.all (fun p => p.2.all fun q =>
    huffTable.lookup q.2 == some (p.1, q.1)) = true := by
  decide +kernel

theorem decodeTable_complete : huffTable.all (fun e =>
    (Huffman.decodeTable.lookup e.2.1).bind (fun m => m.lookup e.2.2) == some e.1) = true := by
  decide +kernel

theorem decodeTable_lengths : Huffman.decodeTable.map Prod.fst =
    [5, 6, 7, 8, 10, 11, 12, 13, 14, 15, 19, 20, 21, 22, 23, 24, 25, 26, 27, 28, 30] := by
  decide +kernel

theorem lookup_mem {α β : Type} [BEq α] [LawfulBEq α] {l : List (α × β)} {a : α} {b : β}
    (h : l.lookup a = some b) : (a, b) ∈ l := by
  induction l with
  | nil => simp at h
  | cons p rest ih =>
      obtain ⟨a', b'⟩ := p
      rw [List.lookup_cons] at h
      by_cases he : a == a'
      · simp only [he] at h
        have := eq_of_beq he
        simp_all
      · simp only [he] at h
        simp [ih h]

theorem mem_huffTable {s n v : Nat} : (s, n, v) ∈ huffTable ↔ huffTable.lookup s = some (n, v) := by
  constructor
  · intro h
    have := List.all_eq_true.1 huffTable_keys _ h
    simp only [Bool.and_eq_true, beq_iff_eq] at this
    exact this.1
  · exact lookup_mem

theorem huffTable_lt {s n v : Nat} (h : (s, n, v) ∈ huffTable) : s < 257 := by
  have := List.all_eq_true.1 huffTable_keys _ h
  simp only [Bool.and_eq_true, decide_eq_true_eq] at this
  exact this.2

theorem huffTable_bounds {s n v : Nat} (h : (s, n, v) ∈ huffTable) :
    5 ≤ n ∧ n ≤ 30 ∧ v < 2 ^ n := by
  obtain ⟨h1, h5, -, h3⟩ := huffTable_tiles.bounds h
  refine ⟨h5, h1, ?_⟩
  have e : (2 : Nat) ^ 30 = 2 ^ n * 2 ^ (30 - n) := by
    rw [← Nat.pow_add]; congr 1; simp only at h1; omega
  simp only at h3
  rw [e] at h3
  exact Nat.le_of_mul_le_mul_right h3 (Nat.two_pow_pos _)

theorem huffTable_exists {s : Nat} (h : s < 257) : ∃ n v, (s, n, v) ∈ huffTable := by
  have := List.all_eq_true.1 huffTable_total s (List.mem_range.2 h)
  obtain ⟨⟨n, v⟩, h⟩ := Option.isSome_iff_exists.1 this
  exact ⟨n, v, lookup_mem h⟩

theorem huffCode_eq {s n v : Nat} (h : (s, n, v) ∈ huffTable) : huffCode s = bits n v := by
  unfold huffCode
  rw [mem_huffTable.1 h]

theorem encodeTableAt_eq {s n v : Nat} (h : (s, n, v) ∈ huffTable) :
    Huffman.encodeTableAt s = .ok (v, n) := by
  have := List.all_eq_true.1 encodeTable_check _ h
  unfold Huffman.encodeTableAt
  rw [eq_of_beq this]

theorem decodeTable_nodup {n : Nat} {m : List (Nat × Nat)} (h : (n, m) ∈ Huffman.decodeTable) :
    Huffman.decodeTable.lookup n = some m := by
  have hn : (Huffman.decodeTable.map Prod.fst).Nodup := by rw [decodeTable_lengths]; decide
  generalize Huffman.decodeTable = l at h hn
  induction l with
  | nil => simp at h
  | cons p rest ih =>
      obtain ⟨a, b⟩ := p
      simp only [List.map_cons, List.nodup_cons] at hn
      rw [List.lookup_cons]
      rcases List.mem_cons.1 h with he | h'
      · obtain ⟨rfl, rfl⟩ := Prod.mk.inj he
        simp
      · have : n ≠ a := by
          rintro rfl
          exact hn.1 (List.mem_map_of_mem (f := Prod.fst) h')
        rw [beq_false_of_ne this]
        exact ih h' hn.2

/-- Lookup in the table of codes of one length. -/
theorem decodeTable_lookup {n : Nat} {m : List (Nat × Nat)} (h : (n, m) ∈ Huffman.decodeTable)
    (k s : Nat) : m.lookup k = some s ↔ (s, n, k) ∈ huffTable := by
  constructor
  · intro hk
    have h1 := List.all_eq_true.1 decodeTable_sound _ h
    have h2 := List.all_eq_true.1 h1 _ (lookup_mem hk)
    exact lookup_mem (eq_of_beq h2)
  · intro hk
    have h1 := eq_of_beq (List.all_eq_true.1 decodeTable_complete _ hk)
    simp only [decodeTable_nodup h, Option.bind_some] at h1
    exact h1

/-! ### Prefix code -/

/-- The first 30 bits of a bit string of length `L`, zero padded. -/
def top30 (L V : Nat) : Nat := V * 2 ^ 30 / 2 ^ L

theorem covers_iff {s n v L V : Nat} (hn : n ≤ 30) (hL : n ≤ L) :
    Covers (s, n, v) (top30 L V) ↔ V / 2 ^ (L - n) = v := by
  have e30 : (2 : Nat) ^ 30 = 2 ^ (30 - n) * 2 ^ n := by
    rw [← Nat.pow_add]; congr 1; omega
  have eL : (2 : Nat) ^ L = 2 ^ (L - n) * 2 ^ n := by
    rw [← Nat.pow_add]; congr 1; omega
  have ht : top30 L V = V * 2 ^ (30 - n) / 2 ^ (L - n) := by
    unfold top30
    rw [e30, eL, ← Nat.mul_assoc, Nat.mul_div_mul_right _ _ (Nat.two_pow_pos n)]
  have hd : top30 L V / 2 ^ (30 - n) = V / 2 ^ (L - n) := by
    rw [ht, Nat.div_div_eq_div_mul, Nat.mul_comm (2 ^ (L - n)),
      Nat.mul_comm V, Nat.mul_div_mul_left _ _ (Nat.two_pow_pos _)]
  unfold Covers
  simp only
  rw [← hd, Nat.div_eq_iff (Nat.two_pow_pos _)]
  have := Nat.two_pow_pos (30 - n)
  constructor
  · rintro ⟨a, b⟩
    rw [Nat.add_mul] at b
    exact ⟨a, by omega⟩
  · rintro ⟨a, b⟩
    rw [Nat.add_mul]
    exact ⟨a, by omega⟩

theorem top30_lt {L V : Nat} (h : V < 2 ^ L) : top30 L V < 2 ^ 30 := by
  unfold top30
  apply Nat.div_lt_of_lt_mul
  exact Nat.mul_lt_mul_of_pos_right h (by norm_num)

/-- Every bit string belongs to exactly one code: either it starts with it, or it is too short. -/
theorem code_of {L V : Nat} (hV : V < 2 ^ L) :
    ∃ s n v, (s, n, v) ∈ huffTable ∧
      ∀ t m w, (t, m, w) ∈ huffTable → m ≤ L → (V / 2 ^ (L - m) = w ↔ (t, m, w) = (s, n, v)) := by
  obtain ⟨⟨s, n, v⟩, he, hcov⟩ := huffTable_tiles.exists (Nat.zero_le _) (top30_lt hV)
  refine ⟨s, n, v, he, ?_⟩
  intro t m w hm hmL
  have h30 := (huffTable_bounds hm).2.1
  constructor
  · intro h
    exact huffTable_tiles.unique hm he ((covers_iff h30 hmL).2 h) hcov
  · intro h
    rw [← h] at hcov
    exact (covers_iff h30 hmL).1 hcov

end Mh2c
