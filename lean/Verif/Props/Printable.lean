import Verif.Props.Dump
import Verif.Props.HeaderCodec
import Verif.Proofs.Client
import Verif.Proofs.Total

/-! C70 for the frames a program makes itself. -/

namespace Mh2c

open Rfc Mh2c.Stream

/-- Only well-typed entries are encoded. -/
private theorem typed_of_encoded {block : HeaderBlock} {mode : EncodeMode} {table : DynamicTable}
    {b : Bytes} (h : encodeHeaderBlock block mode table = .ok b) : ∀ e ∈ block, WellTyped e := by
  induction block generalizing b with
  | nil => simp
  | cons x xs ih =>
      unfold encodeHeaderBlock at h
      obtain ⟨b1, h1, h⟩ := Res.bind_eq_ok.1 h
      obtain ⟨b2, h2, -⟩ := Res.bind_eq_ok.1 h
      intro e he
      rcases List.mem_cons.1 he with rfl | he
      · by_contra hc
        have := C27_mistyped e mode table (by
          unfold WellTyped at hc
          by_cases hp : e.pfx = .sizeUpdate
          · refine Or.inl ⟨hp, ?_⟩
            cases hx : e.entry with
            | header h => exact ⟨h, rfl⟩
            | maxSize n => exact absurd (Or.inl ⟨hp, n, hx⟩) hc
          · refine Or.inr ⟨hp, ?_⟩
            cases hx : e.entry with
            | maxSize n => exact ⟨n, rfl⟩
            | header h => exact absurd (Or.inr ⟨hp, h, hx⟩) hc)
        rw [this] at h1
        cases h1
      · exact ih h2 e he

/-- C70. Every frame a program can make with the constructors, of a class other than DATA and GOAWAY,
can be printed: no exception, no undefined behaviour. -/
theorem C70_made [Platform] (f : Frame) (h : Constructed f) (hd : ∀ g, f ≠ .data g)
    (hg : ∀ g, f ≠ .goaway g) (s : Stream) : ∃ s', f.dump s = .ok s' := by
  cases h with
  | data => exact absurd rfl (hd _)
  | goaway => exact absurd rfl (hg _)
  | headers flags sid block mode table padding priority f h =>
      show ∃ s', HeadersFrame.dump f s = .ok s'
      unfold HeadersFrame.new HeadersFrame.constructEncodedPayload at h
      obtain ⟨b, h1, h⟩ := Res.bind_eq_ok.1 h
      obtain rfl := Res.ok.inj h
      have h2 : ∃ eb, encodeHeaderBlock block mode table = .ok eb := by
        simp only at h1
        split at h1 <;>
        · obtain ⟨_, -, h1⟩ := Res.bind_eq_ok.1 h1
          obtain ⟨_, h2, -⟩ := Res.bind_eq_ok.1 h1
          exact ⟨_, h2⟩
      obtain ⟨_, h2⟩ := h2
      unfold HeadersFrame.dump
      obtain ⟨s1, h1⟩ := block_ok (typed_of_encoded h2) _
      simp only
      rw [h1]
      exact ⟨_, rfl⟩
  | priority => exact ⟨_, rfl⟩
  | rstStream => exact errorCode_ok _ _
  | settings => exact settings_ok _ _
  | pushPromise flags sid p mode table f h =>
      show ∃ s', PushPromiseFrame.dump f s = .ok s'
      unfold PushPromiseFrame.new PushPromiseFrame.constructEncodedPayload at h
      obtain ⟨b, h1, h⟩ := Res.bind_eq_ok.1 h
      obtain rfl := Res.ok.inj h
      obtain ⟨_, h2, -⟩ := Res.bind_eq_ok.1 h1
      unfold PushPromiseFrame.dump
      obtain ⟨s1, h1⟩ := block_ok (typed_of_encoded h2) _
      simp only
      rw [h1]
      exact ⟨_, rfl⟩
  | ping => exact ⟨_, rfl⟩
  | windowUpdate => exact ⟨_, rfl⟩
  | continuation flags sid block mode table f h =>
      unfold ContinuationFrame.new at h
      obtain ⟨b, h1, h⟩ := Res.bind_eq_ok.1 h
      obtain rfl := Res.ok.inj h
      exact block_ok (typed_of_encoded h1) _

private theorem addressRange_ne_throw [Platform] (b : Bytes) (i n : Nat) (e : Exc) :
    addressRange b i n ≠ .throw e := by
  unfold addressRange
  repeat' split
  all_goals nofun

private theorem parts_ne_throw [Platform] (g : DataFrame) (e : Exc) : g.parts ≠ .throw e := by
  unfold DataFrame.parts
  split
  · refine bind_ne_throw (fun e => ?_) (fun _ e => bind_ne_throw (addressRange_ne_throw _ _ _)
      (fun _ e => ?_) e) e
    · unfold readAt
      split <;> nofun
    · split <;> nofun
  · exact bind_ne_throw (addressRange_ne_throw _ _ _) (fun _ _ h => by cases h) e

/-- C70. No frame a program can make, of whatever class and size, makes printing throw. -/
theorem C70_made_never_throws [Platform] (f : Frame) (h : Constructed f) (s : Stream) (e : Exc) :
    f.dump s ≠ .throw e := by
  by_cases hd : ∃ g, f = .data g
  · obtain ⟨g, rfl⟩ := hd
    show DataFrame.dump g s ≠ .throw e
    exact bind_ne_throw (parts_ne_throw g) (fun _ _ h => by cases h) e
  · by_cases hg : ∃ g, f = .goaway g
    · obtain ⟨g, rfl⟩ := hg
      by_cases hp : DebugPrintable g.payload.debugData
      · obtain ⟨s', _, _, _, h1, -⟩ := C69_goaway_partial g s hp
        intro hc
        rw [show (Frame.goaway g).dump s = g.dump s from rfl, h1] at hc
        cases hc
      · intro hc
        rw [show (Frame.goaway g).dump s = g.dump s from rfl, C69_unterminated_violated g s hp] at hc
        cases hc
    · obtain ⟨s', h'⟩ := C70_made f h (fun g hc => hd ⟨g, hc⟩) (fun g hc => hg ⟨g, hc⟩) s
      rw [h']
      nofun

/-- A HEADERS frame with a size update in its block. -/
example [p : Platform] :
    (do
      let f ← HeadersFrame.new 4 1 [.ofSize .sizeUpdate 100, .ofHeaderOnly (bstr "a", bstr "b")] .none
        .default
      (Frame.headers f).dump ⟨[], false⟩) =
    .ok ⟨bstr ("=== HEADERS FRAME ===\n[Frame Header]\n  length    : 7\n  type      : 1\n" ++
      "  flags     : 4\n  reserved  : 0\n  stream id : 1\n[PAYLOAD]\n" ++
      "  Exclusive: \n  Stream Dependency: \n  Weight: \n  Header Block:\n" ++
      "    100 (dynamic table size update)\n    a: b\n  Padding:\n"), false⟩ := by
  rcases p with ⟨a, b⟩
  cases a <;> cases b <;> decide +kernel

end Mh2c
