import Verif.Props.HeaderRfc

/-! C94: header block entries as the user builds and edits them. -/

namespace Mh2c
open Rfc

/-- C94, edited entries: after any sequence of `set_header` calls ending with `h` the prefix is the
one the entry was built with, `get_header` gives `h`, `get_max_size` throws, and the entry is the
same, and is encoded the same, as one built from that prefix and `h` at once. -/
theorem C94_set_header (e : HeaderEntry) (hs : List Header) (h : Header) :
    let e' := (hs ++ [h]).foldl HeaderEntry.setHeader e
    e'.pfx = e.pfx ∧ e'.getHeader = .ok h ∧ e'.getMaxSize.Throws ∧
      e'.same (.ofHeader e.pfx h) = true ∧
      ∀ (before after : HeaderBlock) mode table,
        encodeHeaderBlock (before ++ e' :: after) mode table
          = encodeHeaderBlock (before ++ .ofHeader e.pfx h :: after) mode table := by
  have key : ∀ (hs : List Header) (e : HeaderEntry),
      (hs ++ [h]).foldl HeaderEntry.setHeader e = .ofHeader e.pfx h := by
    intro hs
    induction hs with
    | nil => intro e; rfl
    | cons g gs ih => intro e; exact ih (e.setHeader g)
  intro e'
  have he : e' = .ofHeader e.pfx h := key hs e
  rw [he]
  refine ⟨rfl, rfl, ⟨_, rfl⟩, ?_, fun _ _ _ _ => rfl⟩
  simp [HeaderEntry.same]

/-- C94, built entries: the prefix and the contents given to the constructor are what the accessors
give back, and the accessor for the other kind of contents throws. -/
theorem C94_built (p : HeaderPrefix) (h : Header) (n : Nat) :
    (HeaderEntry.ofHeader p h).pfx = p ∧ (HeaderEntry.ofHeader p h).getHeader = .ok h ∧
      (HeaderEntry.ofHeader p h).getMaxSize.Throws ∧
    (HeaderEntry.ofSize p n).pfx = p ∧ (HeaderEntry.ofSize p n).getMaxSize = .ok n ∧
      (HeaderEntry.ofSize p n).getHeader.Throws :=
  ⟨rfl, rfl, ⟨_, rfl⟩, rfl, rfl, ⟨_, rfl⟩⟩

/-- C94, the default is the careful one: an entry built from a header alone that is in neither table
goes out as a literal never indexed (RFC 7541 section 6.2.3, first octet `0001xxxx`), a receiver with
any table reads it as such with its value, and reporting it leaves the client's table alone. -/
theorem C94_default_never_indexed (h : Header) (mode : EncodeMode) (table : DynamicTable)
    (hh : ¬ InTables h table) :
    ∃ bytes, encodeHeader (.ofHeaderOnly h) mode table = .ok bytes ∧
      (∃ b bs, bytes = b :: bs ∧ b.toNat / 2 ^ 4 = 1) ∧
      (∀ t : Table, ∃ f, f.2 = h.2 ∧ (h.1 ≠ bstr "accept-control-allow-origin" → f = h) ∧
        BlockDecodes t bytes [.neverIndexed f] t) ∧
      ∀ t : DynamicTable, updateDynamicTable [.ofHeaderOnly h] t = (.ok (), t) :=
  C34_never_indexed h mode table hh

/-- A size update entry edited into a header keeps its prefix, and its encoding then throws. -/
example : (HeaderEntry.ofSize .sizeUpdate 7).setHeader (bstr "a", bstr "b")
      = ⟨.sizeUpdate, .header (bstr "a", bstr "b")⟩ ∧
    encodeHeaderBlock [(HeaderEntry.ofSize .sizeUpdate 7).setHeader (bstr "a", bstr "b")] .none
      .default = .throw .runtimeError := by decide +kernel

example : ¬ InTables (bstr "authorization", bstr "secret") .default :=
  hitIndex_none.1 (by decide +kernel)

end Mh2c
