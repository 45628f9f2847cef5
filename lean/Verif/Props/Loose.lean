/-
C121: what the client makes of any header block.
-/
import Verif.Proofs.Loose

namespace Mh2c

open Rfc

/-! ## C121 -/

/-- C121. A header block is read as a list of entries exactly if it is a sequence of representations
of the client's variant of RFC 7541, and the entries are these. -/
theorem C121_accepts [Platform] (bs : Bytes) (table : DynamicTable) (es : HeaderBlock) :
    decodeHeaderBlock bs table = .ok es ↔
      ∃ items, LooseItems table.entries bs items [] ∧ es = items.map entryOf := by
  constructor
  · intro h
    induction hn : bs.length using Nat.strong_induction_on generalizing bs es with
    | _ n ih =>
    subst hn
    rw [decodeHeaderBlock] at h
    split at h
    · split at h
      · cases h
      · cases h
      · cases h
      · rename_i entry k hd
        split at h
        · cases h
        split at h
        swap
        · cases h
        obtain ⟨rest, h1, h2⟩ := Res.bind_eq_ok.1 h
        obtain rfl := (Res.ok.inj h2).symm
        obtain ⟨items, g1, rfl⟩ := ih _ (by rw [List.length_drop]; omega) _ _ h1 rfl
        obtain ⟨-, item, rfl, g3⟩ := item_ok hd
        exact ⟨item :: items, .cons _ _ _ _ _ g3 g1, rfl⟩
    · rename_i h0
      obtain rfl := (Res.ok.inj h).symm
      obtain rfl : bs = [] := List.length_eq_zero_iff.1 (by omega)
      exact ⟨[], .nil _, rfl⟩
  · rintro ⟨items, h, rfl⟩
    generalize hr : ([] : Bytes) = rest at h
    induction h with
    | nil => subst hr; rw [decodeHeaderBlock]; rfl
    | cons bs mid rest item items hi _ ih =>
        obtain ⟨k, g1, g2, rfl, g4⟩ := hi.drop
        exact decodeHeaderBlock_step g4 g1 g2 (ih hr)

/-- C121. Decoding a header block throws exactly if, after a sequence of representations, there is
one with an index that is in none of the tables (`std::out_of_range`) or a literal whose name or value
is marked as Huffman code and is none (`std::invalid_argument`). -/
theorem C121_rejects [Platform] (bs : Bytes) (table : DynamicTable) (e : Exc) :
    decodeHeaderBlock bs table = .throw e ↔
      ∃ items rest, LooseItems table.entries bs items rest ∧
        ((e = .outOfRange ∧ MissingItem table.entries rest) ∨
         (e = .invalidArgument ∧ BadStringItem table.entries rest)) := by
  constructor
  · intro h
    induction hn : bs.length using Nat.strong_induction_on generalizing bs with
    | _ n ih =>
    subst hn
    rw [decodeHeaderBlock] at h
    split at h
    · split at h
      · rename_i e' hd
        obtain rfl := Res.throw.inj h
        exact ⟨[], bs, .nil _, (item_throw _ _ _).1 hd⟩
      · cases h
      · cases h
      · rename_i entry k hd
        split at h
        · cases h
        split at h
        swap
        · cases h
        rcases bind_eq_throw h with h1 | ⟨_, -, h2⟩
        · obtain ⟨items, rest, g1, g2⟩ := ih _ (by rw [List.length_drop]; omega) _ h1 rfl
          obtain ⟨-, item, rfl, g3⟩ := item_ok hd
          exact ⟨item :: items, rest, .cons _ _ _ _ _ g3 g1, g2⟩
        · cases h2
    · cases h
  · rintro ⟨items, rest, h, hb⟩
    induction h with
    | nil bs =>
        have hd := (item_throw bs table e).2 hb
        have h0 : 0 < bs.length := by
          cases bs with
          | nil => rcases hb with ⟨-, b, tl, _, _, _, h, -⟩ | ⟨-, b, tl, _, _, _, _, h, -⟩ <;> cases h
          | cons => exact Nat.succ_pos _
        rw [decodeHeaderBlock, if_pos h0, hd]
    | cons bs mid rest item items hi _ ih =>
        obtain ⟨k, g1, g2, rfl, g4⟩ := hi.drop
        rw [decodeHeaderBlock, if_pos (by omega), g4]
        simp only
        rw [if_neg (by omega), if_pos (by omega), ih hb]
        rfl

theorem safe_iff [Platform] (bs : Bytes) (table : DynamicTable) :
    (decodeHeaderBlock bs table).Safe ↔
      (∃ es, ReadsAs table.entries bs es) ∨ ∃ e, Rejects table.entries bs e := by
  constructor
  · intro h
    cases hd : decodeHeaderBlock bs table with
    | ok es => exact Or.inl ⟨es, (C121_accepts bs table es).1 hd⟩
    | throw e => exact Or.inr ⟨e, (C121_rejects bs table e).1 hd⟩
    | ub k => rw [hd] at h; exact absurd h id
    | diverge => rw [hd] at h; exact absurd h id
  · rintro (⟨es, h⟩ | ⟨e, h⟩)
    · rw [(C121_accepts bs table es).2 h]; trivial
    · rw [(C121_rejects bs table e).2 h]; trivial

/-- C121. Every other header block is undefined behaviour: the three cases are all there is. -/
theorem C121_undefined [Platform] (bs : Bytes) (table : DynamicTable) :
    (decodeHeaderBlock bs table).IsUb ↔
      (¬ ∃ items, LooseItems table.entries bs items []) ∧
      ¬ ∃ items rest, LooseItems table.entries bs items rest ∧
        (MissingItem table.entries rest ∨ BadStringItem table.entries rest) := by
  constructor
  · rintro ⟨k, hk⟩
    constructor
    · rintro ⟨items, h⟩
      have := (C121_accepts bs table _).2 ⟨items, h, rfl⟩
      rw [hk] at this; cases this
    · rintro ⟨items, rest, h, h1 | h1⟩
      · have := (C121_rejects bs table .outOfRange).2 ⟨items, rest, h, Or.inl ⟨rfl, h1⟩⟩
        rw [hk] at this; cases this
      · have := (C121_rejects bs table .invalidArgument).2 ⟨items, rest, h, Or.inr ⟨rfl, h1⟩⟩
        rw [hk] at this; cases this
  · rintro ⟨h1, h2⟩
    cases hd : decodeHeaderBlock bs table with
    | ok es =>
        obtain ⟨items, g, -⟩ := (C121_accepts bs table es).1 hd
        exact absurd ⟨items, g⟩ h1
    | throw e =>
        obtain ⟨items, rest, g, g1⟩ := (C121_rejects bs table e).1 hd
        exact absurd ⟨items, rest, g, g1.imp And.right And.right⟩ h2
    | ub k => exact ⟨k, rfl⟩
    | diverge => exact absurd hd (C28_terminates bs table).2

attribute [local instance] x86 in
/-- Accepted: a literal with the name of index 0, then an index 0; rejected with either exception;
neither: a block that ends inside a string. -/
example :
    (∃ items, LooseItems [] [0x00, 1, 97, 1, 98, 0x80] items [] ∧
      fields items = [([97], [98]), ([], [])]) ∧
    (∃ items rest, LooseItems [] [0x88, 0xbe] items rest ∧ items.length = 1 ∧
      MissingItem [] rest) ∧
    (∃ items rest, LooseItems [] [0x04, 0x82, 255, 255] items rest ∧
      BadStringItem [] rest) ∧
    ¬ ∃ items, LooseItems [] [0x04, 2, 97] items [] := by
  refine ⟨?_, ?_, ?_, ?_⟩
  · obtain ⟨items, h1, h2⟩ := (C121_accepts [0x00, 1, 97, 1, 98, 0x80] .default
      [⟨.withoutIndexing, .header ([97], [98])⟩, ⟨.indexed, .header ([], [])⟩]).1 (by decide +kernel)
    exact ⟨items, h1, by rw [← headersOf_entryOf, ← h2]; rfl⟩
  · refine ⟨[.indexed (bstr ":status", bstr "200")], [0xbe], .cons _ [0xbe] _ _ _
      (.indexed 0x88 [0xbe] [0xbe] 8 _ (by decide) ?_ (by decide +kernel)) (.nil _), rfl, ?_⟩
    · exact ((int_ok (by omega) (by omega) [0x88, 0xbe] 8 1).1 (by decide +kernel)).2
    · exact ⟨0xbe, [], 7, 62, [], rfl, rfl,
        ((int_ok (by omega) (by omega) [0xbe] 62 1).1 (by decide +kernel)).2, by decide⟩
  · obtain ⟨items, rest, h1, ⟨h2, -⟩ | ⟨-, h2⟩⟩ := (C121_rejects [0x04, 0x82, 255, 255]
      .default .invalidArgument).1 (by decide +kernel)
    · cases h2
    · exact ⟨items, rest, h1, h2⟩
  · rintro ⟨items, h⟩
    have := (C121_accepts [0x04, 2, 97] .default _).2 ⟨items, h, rfl⟩
    have hu : decodeHeaderBlock [0x04, 2, 97] .default = .ub .outOfBounds := by decide +kernel
    rw [hu] at this
    cases this

end Mh2c
