/-
Helper lemmas on `operator==`.
-/
import Verif.Model.Frames

namespace Mh2c

theorem FrameHeader.same_iff {a b : FrameHeader} : a.same b = true ↔ a = b := by
  obtain ⟨a1, a2, a3, a4, a5⟩ := a
  obtain ⟨b1, b2, b3, b4, b5⟩ := b
  simp [FrameHeader.same, and_assoc]

theorem HeaderEntry.same_iff {a b : HeaderEntry} : a.same b = true ↔ a = b := by
  obtain ⟨a1, a2⟩ := a
  obtain ⟨b1, b2⟩ := b
  simp [HeaderEntry.same]

theorem sameBlock_iff {a b : HeaderBlock} : sameBlock a b = true ↔ a = b := by
  induction a generalizing b with
  | nil => cases b <;> simp [sameBlock]
  | cons x xs ih => cases b <;> simp [sameBlock, HeaderEntry.same_iff, ih]

theorem PriorityOption.same_iff {a b : PriorityOption} : a.same b = true ↔ a = b := by
  obtain ⟨a1, a2, a3⟩ := a
  obtain ⟨b1, b2, b3⟩ := b
  simp [PriorityOption.same, and_assoc]

theorem PushPromisePayload.same_iff {a b : PushPromisePayload} : a.same b = true ↔ a = b := by
  obtain ⟨a1, a2, a3, a4⟩ := a
  obtain ⟨b1, b2, b3, b4⟩ := b
  simp [PushPromisePayload.same, sameBlock_iff, and_assoc]

theorem GoawayPayload.same_iff {a b : GoawayPayload} : a.same b = true ↔ a = b := by
  obtain ⟨a1, a2, a3, a4⟩ := a
  obtain ⟨b1, b2, b3, b4⟩ := b
  simp [GoawayPayload.same, and_assoc]

theorem HeadersFrame.same_iff {a b : HeadersFrame} : a.same b = true ↔
    a.header = b.header ∧ a.priority = b.priority ∧ a.headerBlock = b.headerBlock ∧
      a.padding = b.padding := by
  simp [HeadersFrame.same, FrameHeader.same_iff, PriorityOption.same_iff, sameBlock_iff, and_assoc]

theorem PushPromiseFrame.same_iff {a b : PushPromiseFrame} : a.same b = true ↔
    a.header = b.header ∧ a.payload = b.payload := by
  simp [PushPromiseFrame.same, FrameHeader.same_iff, PushPromisePayload.same_iff]

theorem ContinuationFrame.same_iff {a b : ContinuationFrame} : a.same b = true ↔
    a.header = b.header ∧ a.headerBlock = b.headerBlock := by
  simp [ContinuationFrame.same, FrameHeader.same_iff, sameBlock_iff]

end Mh2c
