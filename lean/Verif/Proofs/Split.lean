/-
Helper lemmas: decoding the beginning of a header block.
-/
import Verif.Proofs.HeaderProgress

namespace Mh2c

/-- `x` is `y`, or it is undefined. -/
def SameOrUb {α : Type} (x y : Res α) : Prop := x = y ∨ x.IsUb

theorem SameOrUb.rfl' {α : Type} {x : Res α} : SameOrUb x x := Or.inl rfl

theorem SameOrUb.ub {α : Type} {k : Ub} {y : Res α} : SameOrUb (.ub k) y := Or.inr ⟨k, rfl⟩

theorem SameOrUb.ok {α : Type} {x y : Res α} {a : α} (h : SameOrUb x y) (hx : x = .ok a) :
    y = .ok a := by
  rcases h with h | ⟨k, h⟩
  · rw [← h, hx]
  · rw [hx] at h; cases h

theorem SameOrUb.bind {α β : Type} {x y : Res α} {f g : α → Res β} (h : SameOrUb x y)
    (hf : ∀ a, x = .ok a → SameOrUb (f a) (g a)) : SameOrUb (x >>= f) (y >>= g) := by
  rcases h with rfl | ⟨k, rfl⟩
  · cases x with
    | ok a => exact hf a rfl
    | throw e => exact Or.inl rfl
    | ub k => exact Or.inl rfl
    | diverge => exact Or.inl rfl
  · exact Or.inr ⟨k, rfl⟩

theorem decodeIntLoop_part (a b : Bytes) (m acc : Nat) :
    SameOrUb (decodeIntLoop a m acc) (decodeIntLoop (a ++ b) m acc) := by
  induction a generalizing m acc with
  | nil => exact .ub
  | cons x xs ih =>
      rw [List.cons_append, decodeIntLoop, decodeIntLoop]
      split
      · exact .rfl'
      · split
        · exact .rfl'
        · simp only
          split
          · exact ih _ _
          · exact .rfl'

theorem decodeIntWithLength_part (n : Nat) (a b : Bytes) :
    SameOrUb (decodeIntWithLength n a) (decodeIntWithLength n (a ++ b)) := by
  unfold decodeIntWithLength
  refine .bind ?_ (fun _ _ => .rfl')
  cases a with
  | nil => exact .ub
  | cons x xs =>
      rw [List.cons_append, decodeIntegerValue, decodeIntegerValue]
      split
      · exact .rfl'
      · exact decodeIntLoop_part _ _ _ _

theorem front_part (a b : Bytes) : SameOrUb (front a) (front (a ++ b)) := by
  cases a with
  | nil => exact .ub
  | cons x xs => exact .rfl'

theorem copyRange_part (a b : Bytes) (i n : Nat) :
    SameOrUb (copyRange a i n) (copyRange (a ++ b) i n) := by
  unfold copyRange
  split
  · rename_i h
    rw [if_pos (by rw [List.length_append]; omega), List.drop_append_of_le_length (by omega),
      List.take_append_of_le_length (by rw [List.length_drop]; omega)]
    exact .rfl'
  · exact .ub

theorem addressRange_part [P : Platform] (a b : Bytes) (i n : Nat) :
    SameOrUb (addressRange a i n) (addressRange (a ++ b) i n) := by
  unfold addressRange
  split
  · rename_i h
    split
    · exact .ub
    · rename_i h2
      rw [if_pos (by rw [List.length_append]; omega), if_neg (by
        rintro ⟨h3, h4⟩
        rw [List.length_append] at h3
        exact h2 ⟨by omega, h4⟩), List.drop_append_of_le_length (by omega),
        List.take_append_of_le_length (by rw [List.length_drop]; omega)]
      exact .rfl'
  · exact .ub

theorem decodeHeaderString_part [Platform] (a b : Bytes) :
    SameOrUb (decodeHeaderString a) (decodeHeaderString (a ++ b)) := by
  unfold decodeHeaderString
  refine .bind (decodeIntWithLength_part 7 a b) ?_
  rintro ⟨length, intLength⟩ _
  refine .bind (front_part a b) (fun first _ => ?_)
  simp only
  split
  · exact .bind (copyRange_part a b _ _) (fun d _ => .rfl')
  · exact .bind (addressRange_part a b _ _) (fun _ _ => .rfl')

/-- Erasing leaves the rest, which is continued by what follows. -/
theorem eraseFirst_part {β : Type} (n : Nat) (a b : Bytes) {f g : Bytes → Res β}
    (h : SameOrUb (f (a.drop n)) (g (a.drop n ++ b))) :
    SameOrUb (eraseFirst n a >>= f) (eraseFirst n (a ++ b) >>= g) := by
  unfold eraseFirst
  split
  · rename_i hn
    rw [if_pos (by rw [List.length_append]; omega), Res.ok_bind, Res.ok_bind,
      List.drop_append_of_le_length hn]
    exact h
  · exact .ub

theorem decodeLiteral_part [Platform] (a b : Bytes) (p : HeaderPrefix) (ih : Header) (n : Nat) :
    SameOrUb (decodeLiteral a p ih n) (decodeLiteral (a ++ b) p ih n) := by
  unfold decodeLiteral
  refine eraseFirst_part n a b ?_
  split
  · refine .bind (decodeHeaderString_part _ _) ?_
    rintro ⟨name, nl⟩ _
    refine eraseFirst_part nl _ b ?_
    refine .bind (decodeHeaderString_part _ _) ?_
    rintro ⟨value, vl⟩ _
    exact eraseFirst_part vl _ b .rfl'
  · refine .bind (decodeHeaderString_part _ _) ?_
    rintro ⟨value, vl⟩ _
    exact eraseFirst_part vl _ b .rfl'

/-- Decoding one representation from the beginning `a` of `a ++ b` gives what decoding it from
`a ++ b` gives, or reads outside `a`. -/
theorem decodeHeader_part [Platform] (a b : Bytes) (t : DynamicTable) :
    SameOrUb (decodeHeader a t) (decodeHeader (a ++ b) t) := by
  unfold decodeHeader
  refine .bind (front_part a b) (fun first _ => ?_)
  refine .bind .rfl' (fun p _ => ?_)
  split
  · exact .bind (decodeIntWithLength_part 5 a b) (fun _ _ => .rfl')
  · rename_i hp
    rw [decodeIndex_eq hp, decodeIndex_eq hp]
    refine .bind (decodeIntWithLength_part _ a b) ?_
    rintro ⟨index, il⟩ _
    simp only
    have key : ∀ h : Header, SameOrUb
        (if p = .indexed then pure (HeaderEntry.ofHeader p h, il) else decodeLiteral a p h il)
        (if p = .indexed then pure (HeaderEntry.ofHeader p h, il)
          else decodeLiteral (a ++ b) p h il) := by
      intro h
      split
      · exact .rfl'
      · exact decodeLiteral_part a b _ _ _
    split
    · exact .bind .rfl' (fun h _ => key h)
    · exact key _

/-- Decoding `a ++ b` is decoding `a`, then `b`, unless decoding `a` reads outside `a`. -/
theorem decodeHeaderBlock_append [Platform] (a b : Bytes) (t : DynamicTable) :
    decodeHeaderBlock (a ++ b) t = (do
      let ea ← decodeHeaderBlock a t
      let eb ← decodeHeaderBlock b t
      return ea ++ eb) ∨ (decodeHeaderBlock a t).IsUb := by
  induction hn : a.length using Nat.strong_induction_on generalizing a with
  | _ n ih =>
      subst hn
      by_cases ha : a = []
      · subst ha
        left
        rw [decodeHeaderBlock_nil, Res.ok_bind, List.nil_append]
        cases decodeHeaderBlock b t <;> rfl
      · rw [decodeHeaderBlock_eq ha, decodeHeaderBlock_eq (by simp [ha])]
        rcases decodeHeader_part a b t with h | ⟨k, h⟩
        · rw [← h]
          cases hd : decodeHeader a t with
          | throw e => exact Or.inl rfl
          | ub k => exact Or.inl rfl
          | diverge => exact Or.inl rfl
          | ok p =>
              obtain ⟨e, m⟩ := p
              have hb := decodeHeader_bounds hd
              rw [Res.ok_bind, Res.ok_bind]
              simp only
              rw [List.drop_append_of_le_length hb.2]
              rcases ih (a.drop m).length (by rw [List.length_drop]; omega) (a.drop m) rfl with
                h1 | ⟨k, h1⟩
              · left
                rw [h1]
                cases decodeHeaderBlock (a.drop m) t <;> try rfl
                rw [Res.ok_bind, Res.ok_bind]
                cases decodeHeaderBlock b t <;> rfl
              · right
                rw [h1]
                exact ⟨k, rfl⟩
        · right
          rw [h]
          exact ⟨k, rfl⟩

/-! ### Blocks without references to the dynamic table -/

/-- What decodes with an empty dynamic table decodes to the same with any table. -/
theorem decodeHeader_noReference [Platform] {v : Bytes} {m : Nat} {x : HeaderEntry × Nat}
    (h : decodeHeader v ⟨[], 0, m⟩ = .ok x) (t : DynamicTable) : decodeHeader v t = .ok x := by
  unfold decodeHeader at h ⊢
  obtain ⟨first, h1, h⟩ := Res.bind_eq_ok.1 h
  obtain ⟨p, h2, h⟩ := Res.bind_eq_ok.1 h
  rw [h1, Res.ok_bind, h2, Res.ok_bind]
  split
  · rename_i hp
    rw [if_pos hp] at h
    exact h
  · rename_i hp
    rw [if_neg hp] at h
    obtain ⟨⟨index, il⟩, h3, h⟩ := Res.bind_eq_ok.1 h
    rw [h3, Res.ok_bind]
    simp only at h ⊢
    split
    · rename_i hi
      rw [if_pos hi] at h
      obtain ⟨ih, h4, h⟩ := Res.bind_eq_ok.1 h
      have : makeIndexedHeader index t = .ok ih := by
        unfold makeIndexedHeader at h4 ⊢
        split
        · rename_i h5
          rw [if_pos h5] at h4
          unfold DynamicTable.atPos at h4
          simp at h4
        · rename_i h5
          rw [if_neg h5] at h4
          exact h4
      rw [this, Res.ok_bind]
      exact h
    · rename_i hi
      rw [if_neg hi] at h
      exact h

theorem decodeHeaderBlock_noReference [Platform] {v : Bytes} {m : Nat} {es : HeaderBlock}
    (h : decodeHeaderBlock v ⟨[], 0, m⟩ = .ok es) (t : DynamicTable) :
    decodeHeaderBlock v t = .ok es := by
  induction hn : v.length using Nat.strong_induction_on generalizing v es with
  | _ n ih =>
      subst hn
      by_cases hv : v = []
      · subst hv
        rw [decodeHeaderBlock_nil] at h ⊢
        exact h
      · rw [decodeHeaderBlock_eq hv] at h ⊢
        obtain ⟨⟨e, k⟩, h1, h⟩ := Res.bind_eq_ok.1 h
        have hb := decodeHeader_bounds h1
        obtain ⟨rest, h2, h⟩ := Res.bind_eq_ok.1 h
        rw [decodeHeader_noReference h1, Res.ok_bind]
        simp only
        rw [ih (v.drop k).length (by rw [List.length_drop]; omega) h2 rfl, Res.ok_bind]
        exact h

end Mh2c
