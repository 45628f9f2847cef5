/-
C121: what the client makes of any header block, in frames.
-/
import Verif.Props.Loose
import Verif.Props.ServerStream
import Verif.Props.Accessors

namespace Mh2c

open Rfc

/-- C121, frames: a HEADERS, PUSH_PROMISE or CONTINUATION frame is delivered with a header list
exactly if padding and fixed fields leave a header block of the client's variant with these headers. -/
theorem C121_frames [Platform] (fh : FrameHeader) (raw : Bytes) (table : DynamicTable)
    (ht : fh.type ∈ [1, 5, 9]) (hs : List Field) :
    (∃ f, buildFrame fh raw table = .ok f ∧ f.kind = some fh.type ∧ f.headerList = hs) ↔
      ∃ block items, CarriesBlock fh.flags fh.type raw block ∧
        LooseItems table.entries block items [] ∧ fields items = hs := by
  have key : ∀ block es, CarriesBlock fh.flags fh.type raw block →
      decodeHeaderBlock block table = .ok es →
      ∃ f, buildFrame fh raw table = .ok f ∧ f.kind = some fh.type ∧ f.headerList = headersOf es := by
    intro block es hc hd
    obtain ⟨f, hf, hk⟩ := legal_accepted fh raw table (.block _ _ block hc)
      (fun _ => ⟨block, hc, es, hd⟩)
    refine ⟨f, hf, hk, ?_⟩
    cases built_of_ok hf with
    | headers ht g hg =>
        have := headers_block (ht ▸ hc) hg
        rw [hd] at this
        obtain rfl := Res.ok.inj this
        rfl
    | pushPromise ht g hg =>
        have := pushPromise_block (ht ▸ hc) hg
        rw [hd] at this
        obtain rfl := Res.ok.inj this
        rfl
    | continuation ht g hg =>
        have := continuation_block (ht ▸ hc) hg
        rw [hd] at this
        obtain rfl := Res.ok.inj this
        rfl
    | rawHeaders => cases hk
    | data ht => rw [ht] at hc; cases hc
    | _ =>
        rename_i ht _ _
        rw [ht] at hc
        cases hc
  constructor
  · rintro ⟨f, hf, hk, rfl⟩
    obtain ⟨block, es, hc, hd⟩ := (C84_blocks_partial fh raw table ht).1 ⟨f, hf, hk⟩
    rw [ReadsAs, ← C121_accepts] at hd
    obtain ⟨g, g1, -, g2⟩ := key block es hc hd
    rw [hf] at g1
    obtain rfl := Res.ok.inj g1
    obtain ⟨items, k1, rfl⟩ := (C121_accepts block table es).1 hd
    exact ⟨block, items, hc, k1, by rw [g2, headersOf_entryOf]⟩
  · rintro ⟨block, items, hc, hl, rfl⟩
    obtain ⟨f, g1, g2, g3⟩ := key block _ hc ((C121_accepts block table _).2 ⟨items, hl, rfl⟩)
    exact ⟨f, g1, g2, by rw [g3, headersOf_entryOf]⟩

attribute [local instance] x86 in
/-- A HEADERS frame with padding. -/
example : ∃ f, buildFrame ⟨4, 1, 12, 0, 1⟩ [2, 0x88, 7, 7] .default = .ok f ∧ f.kind = some 1 ∧
    f.headerList = [(bstr ":status", bstr "200")] := by
  refine (C121_frames ⟨4, 1, 12, 0, 1⟩ [2, 0x88, 7, 7] .default (by decide) _).2
    ⟨[0x88], [.indexed (bstr ":status", bstr "200")],
      .headers _ _ (by decide) (.padded 2 [0x88] [7, 7] (by decide) rfl), ?_, rfl⟩
  exact .cons _ [] _ _ _ (.indexed 0x88 [] [] 8 _ (by decide)
    ((int_ok (by omega) (by omega) [0x88] 8 1).1 (by decide +kernel)).2 (by decide +kernel)) (.nil _)

end Mh2c
