/-
Lemmas about the read and write loops.
-/
import Verif.Model.Client
import Mathlib.Tactic.Ring

namespace Mh2c

theorem toIntLength_le (n : Nat) : toIntLength n ≤ n := by
  unfold toIntLength; split
  · exact Nat.mod_le _ _
  · omega

theorem toIntLength_small {n : Nat} (h : n < 2 ^ 31) : toIntLength n = n := by
  unfold toIntLength
  rw [Nat.mod_eq_of_lt (by omega), if_pos h]

/-- Complete read, or failure after a strict part. -/
theorem readLoop_spec (reads : List Nat) (incoming : Bytes) (n : Nat) :
    ∃ reads', reads' <:+ reads ∧
      ((n ≤ incoming.length ∧ (0 < n → reads'.length < reads.length) ∧
        readLoop reads incoming n = (.ok (incoming.take n), reads', incoming.drop n)) ∨
       ∃ k, k < n ∧ k ≤ incoming.length ∧
        readLoop reads incoming n = (.throw .runtimeError, reads', incoming.drop k)) := by
  induction reads generalizing incoming n with
  | nil =>
      cases n with
      | zero => exact ⟨[], List.suffix_refl _, Or.inl ⟨by omega, by omega, by simp [readLoop]⟩⟩
      | succ n => exact ⟨[], List.suffix_refl _, Or.inr ⟨0, by omega, by omega, by simp [readLoop]⟩⟩
  | cons r rs ih =>
      cases n with
      | zero => exact ⟨r :: rs, List.suffix_refl _, Or.inl ⟨by omega, by omega, by simp [readLoop]⟩⟩
      | succ n =>
          have hle := toIntLength_le (n + 1)
          rw [readLoop]
          by_cases hk : min r (min (toIntLength (n + 1)) incoming.length) = 0
          · rw [if_pos hk]
            exact ⟨rs, List.suffix_cons _ _, Or.inr ⟨0, by omega, by omega, by simp⟩⟩
          · rw [if_neg hk]
            generalize hkk : min r (min (toIntLength (n + 1)) incoming.length) = k at hk
            obtain ⟨reads', hs, h⟩ := ih (incoming.drop k) (n + 1 - k)
            have hlen := hs.length_le
            refine ⟨reads', hs.trans (List.suffix_cons _ _), ?_⟩
            rcases h with ⟨h1, -, h2⟩ | ⟨j, h1, h2, h3⟩
            · left
              rw [List.length_drop] at h1
              refine ⟨by omega, fun _ => by simp only [List.length_cons]; omega, ?_⟩
              rw [h2, List.drop_drop, (by omega : k + (n + 1 - k) = n + 1)]
              simp only
              have : incoming.take (n + 1) =
                  incoming.take k ++ (incoming.drop k).take (n + 1 - k) := by
                rw [← List.take_add, (by omega : k + (n + 1 - k) = n + 1)]
              rw [this]
            · right
              rw [List.length_drop] at h2
              refine ⟨k + j, by omega, by omega, ?_⟩
              rw [h3, List.drop_drop]

/-- Positive chunk sizes are enough. -/
theorem readLoop_progress (reads : List Nat) (incoming : Bytes) (n : Nat)
    (hpos : ∀ r ∈ reads.take n, 0 < r) (hlen : n ≤ reads.length) (hn : n < 2 ^ 31)
    (hi : n ≤ incoming.length) :
    ∃ j, j ≤ n ∧
      readLoop reads incoming n = (.ok (incoming.take n), reads.drop j, incoming.drop n) := by
  induction reads generalizing incoming n with
  | nil =>
      obtain rfl : n = 0 := by simpa using hlen
      exact ⟨0, by omega, by simp [readLoop]⟩
  | cons r rs ih =>
      cases n with
      | zero => exact ⟨0, by omega, by simp [readLoop]⟩
      | succ n =>
          rw [readLoop]
          have hr : 0 < r := hpos r (by simp)
          rw [toIntLength_small hn]
          have hk : min r (min (n + 1) incoming.length) ≠ 0 := by omega
          rw [if_neg hk]
          generalize hkk : min r (min (n + 1) incoming.length) = k at hk
          obtain ⟨j, hj, h⟩ := ih (incoming.drop k) (n + 1 - k)
            (fun x hx => hpos x (by
              rw [List.take_succ_cons]
              exact List.mem_cons_of_mem _ ((List.take_subset_take_left rs (by omega)) hx)))
            (by simp at hlen; omega) (by omega) (by rw [List.length_drop]; omega)
          refine ⟨j + 1, by omega, ?_⟩
          rw [h, List.drop_drop, (by omega : k + (n + 1 - k) = n + 1)]
          simp only [List.drop_succ_cons]
          have : incoming.take (n + 1) =
              incoming.take k ++ (incoming.drop k).take (n + 1 - k) := by
            rw [← List.take_add, (by omega : k + (n + 1 - k) = n + 1)]
          rw [this]

/-- Complete write, or failure after a strict part. -/
theorem writeLoop_spec (writes : List Nat) (sent data : Bytes) :
    ∃ writes', writes' <:+ writes ∧
      (writeLoop writes sent data = (.ok (), writes', sent ++ data) ∨
       ∃ k, k < data.length ∧
        writeLoop writes sent data = (.throw .runtimeError, writes', sent ++ data.take k)) := by
  induction writes generalizing sent data with
  | nil =>
      cases data with
      | nil => exact ⟨[], List.suffix_refl _, Or.inl (by simp [writeLoop])⟩
      | cons b bs => exact ⟨[], List.suffix_refl _, Or.inr ⟨0, by simp, by simp [writeLoop]⟩⟩
  | cons w ws ih =>
      cases data with
      | nil => exact ⟨w :: ws, List.suffix_refl _, Or.inl (by simp [writeLoop])⟩
      | cons b bs =>
          rw [writeLoop]
          have hle := toIntLength_le (b :: bs).length
          by_cases hk : min w (toIntLength (b :: bs).length) = 0
          · rw [if_pos hk]
            exact ⟨ws, List.suffix_cons _ _, Or.inr ⟨0, by simp, by simp⟩⟩
          · rw [if_neg hk]
            generalize hkk : min w (toIntLength (b :: bs).length) = k at hk
            obtain ⟨writes', hs, h⟩ := ih (sent ++ (b :: bs).take k) ((b :: bs).drop k)
            refine ⟨writes', hs.trans (List.suffix_cons _ _), ?_⟩
            rcases h with h | ⟨j, h1, h2⟩
            · left
              rw [h, List.append_assoc, List.take_append_drop]
            · right
              rw [List.length_drop] at h1
              refine ⟨k + j, by omega, ?_⟩
              rw [h2, List.append_assoc, ← List.take_add]

theorem writeLoop_progress (writes : List Nat) (sent data : Bytes)
    (hpos : ∀ w ∈ writes.take data.length, 0 < w) (hlen : data.length ≤ writes.length)
    (hn : data.length < 2 ^ 31) :
    ∃ j, j ≤ data.length ∧
      writeLoop writes sent data = (.ok (), writes.drop j, sent ++ data) := by
  induction writes generalizing sent data with
  | nil =>
      obtain rfl : data = [] := by simpa using hlen
      exact ⟨0, by simp, by simp [writeLoop]⟩
  | cons w ws ih =>
      cases data with
      | nil => exact ⟨0, by simp, by simp [writeLoop]⟩
      | cons b bs =>
          rw [writeLoop]
          have hw : 0 < w := hpos w (by simp)
          rw [toIntLength_small hn]
          have hk : min w (b :: bs).length ≠ 0 := by simp; omega
          rw [if_neg hk]
          generalize hkk : min w (b :: bs).length = k at hk
          obtain ⟨j, hj, h⟩ := ih (sent ++ (b :: bs).take k) ((b :: bs).drop k)
            (fun x hx => hpos x (by
              rw [List.length_cons, List.take_succ_cons]
              refine List.mem_cons_of_mem _ ((List.take_subset_take_left ws ?_) hx)
              rw [List.length_drop, List.length_cons]; omega))
            (by rw [List.length_drop]; simp only [List.length_cons] at hlen ⊢; omega)
            (by rw [List.length_drop]; omega)
          rw [List.length_drop] at hj
          refine ⟨j + 1, by omega, ?_⟩
          rw [h, List.append_assoc, List.take_append_drop, List.drop_succ_cons]

end Mh2c
