import Verif.Spec.Stdout
import Verif.Props.Client

/-! C116: the library keeps standard output to the program. -/

namespace Mh2c

/-- C116. build_frame writes one message exactly if it is given a HEADERS frame that it cannot
decode, which is also when it returns a raw frame; otherwise it writes nothing. -/
theorem C116_build [Platform] (fh : FrameHeader) (raw : Bytes) (table : DynamicTable) :
    (buildFrameMessages fh raw table = 1 ↔ buildFrame fh raw table = .ok (.raw ⟨fh, raw⟩)) ∧
    (buildFrameMessages fh raw table = 0 ∨ buildFrameMessages fh raw table = 1 ∧ fh.type = 1) := by
  have other (h : fh.type ≠ 1) : buildFrameMessages fh raw table = 0 := by
    unfold buildFrameMessages
    rcases type_cases fh.type with e | e | e | e | e | e | e | e | e | e | e
    case inr.inl => exact absurd e h
    case inr.inr.inr.inr.inr.inr.inr.inr.inr.inr =>
      have : frameTypeOf fh.type = none := by
        unfold frameTypeOf
        rw [List.find?_eq_none]
        intro f _
        simp only [beq_iff_eq]
        intro he
        rw [← he] at e
        revert e
        cases f <;> decide
      rw [this]
    all_goals rw [e]; rfl
  by_cases h : fh.type = 1
  · have e : buildFrameMessages fh raw table = buildHeadersMessages fh raw table := by
      unfold buildFrameMessages; rw [h]; rfl
    rw [e, buildFrame_headers _ _ _ h, buildHeadersFrame, buildHeadersMessages]
    cases HeadersFrame.ofRaw fh raw table <;> simp [h]
  · rw [other h]
    refine ⟨⟨nofun, fun hb => ?_⟩, Or.inl rfl⟩
    cases built_of_ok hb with
    | rawHeaders h' _ _ => exact absurd h' h

private theorem process_messages [Platform] (c : Client) (fh : FrameHeader) (raw : Bytes)
    (h : buildFrameMessages fh raw c.responseTable ≠ 0) :
    (c.processFrame fh raw).1 = .ub .nullDeref := by
  have ht : fh.type = 1 := by
    rcases (C116_build fh raw c.responseTable).2 with h' | h'
    · exact absurd h' h
    · exact h'.2
  have hb : buildFrame fh raw c.responseTable = .ok (.raw ⟨fh, raw⟩) := by
    rcases (C116_build fh raw c.responseTable).2 with h' | h'
    · exact absurd h' h
    · exact (C116_build fh raw c.responseTable).1.1 h'.1
  unfold Client.processFrame
  rw [hb]
  have : updateDynamicTableFrame (.raw ⟨fh, raw⟩) c.responseTable =
      (.ub .nullDeref, c.responseTable) := updateFrame_built (built_of_ok hb)
  simp only [this]

/-- C116. receive_frame writes nothing to standard output, except that it may write a message right
before it dereferences a null pointer (C61). -/
theorem C116_receive [Platform] (c : Client) (h : c.receiveFrame.1 ≠ .ub .nullDeref) :
    c.receiveFrameMessages = 0 := by
  by_contra hc
  apply h
  unfold Client.receiveFrameMessages at hc
  unfold Client.receiveFrame
  split at hc
  · rename_i e1
    rw [e1]
    simp only at hc ⊢
    split at hc
    · rename_i e2
      rw [e2]
      simp only at hc ⊢
      split at hc
      · rename_i e3
        rw [if_pos e3]
        split at hc
        · rename_i e4
          rw [e4]
          exact process_messages _ _ _ hc
        · exact absurd rfl hc
      · rename_i e3
        rw [if_neg e3]
        exact process_messages _ _ _ hc
    · exact absurd rfl hc
  · exact absurd rfl hc

/-- C116. In no session without undefined behaviour does the library write to standard output: what a
program finds there it has printed itself. -/
theorem C116_session [Platform] (c c' : Client) (ops : List Op) (h : History c ops c') :
    messages ops c = 0 := by
  induction h with
  | nil c => rfl
  | cons c op ops c' hs _ ih =>
      rw [messages, ih]
      cases op with
      | receiveFrame =>
          refine C116_receive c fun hc => ?_
          have : (Op.run .receiveFrame c).1 = (c.receiveFrame.1 >>= fun _ => pure ()) := rfl
          rw [this, hc] at hs
          exact hs
      | _ => rfl

/-- A client with this stream ahead. -/
private def printing (stream : Bytes) : Client :=
  ⟨⟨stream, [], List.replicate 9 100, []⟩, DynamicTable.default, DynamicTable.default⟩

/-- A HEADERS frame with an index beyond both tables: one message, then the null dereference. After a frame
that can be decoded, or one of another type, nothing is written. -/
example [p : Platform] :
    messages [.receiveFrame] (printing [0, 0, 1, 1, 4, 0, 0, 0, 1, 0xfe]) = 1 ∧
    (printing [0, 0, 1, 1, 4, 0, 0, 0, 1, 0xfe]).receiveFrame.1 = .ub .nullDeref ∧
    messages [.receiveFrame] (printing [0, 0, 1, 1, 4, 0, 0, 0, 1, 0x88]) = 0 ∧
    messages [.receiveFrame, .receiveFrame]
      (printing [0, 0, 1, 9, 4, 0, 0, 0, 1, 0xfe, 0, 0, 0, 99, 0, 0, 0, 0, 1]) = 0 := by
  rcases p with ⟨a, b⟩
  cases a <;> cases b <;> decide +kernel

end Mh2c
