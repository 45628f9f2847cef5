/-
C87: the octets on the wire identify the frames sent.
-/
import Verif.Props.Conversation
import Verif.Props.Equality

namespace Mh2c

open Rfc

theorem SameFrame.comparesEqual {f g : Frame} (h : SameFrame f g) (hr : ∀ a, f ≠ .raw a) :
    ComparesEqual f g := by
  cases f <;> cases g <;> simp only [SameFrame, reduceCtorEq] at h <;>
    first
      | exact .headers h
      | exact .pushPromise h
      | exact .continuation h
      | (rw [C78_exact _ _ hr, h])

theorem Proper.not_raw [Platform] {t : DynamicTable} {f : Frame} (h : Proper t f) :
    ∀ a, f ≠ .raw a := by
  rintro a rfl
  cases h

theorem frameOctets_inj {t1 t2 f1 f2 : UInt8} {s1 s2 : UInt32} {p1 p2 r1 r2 : Bytes}
    (l1 : p1.length < 2 ^ 24) (l2 : p2.length < 2 ^ 24) (h1 : s1.toNat < 2 ^ 31)
    (h2 : s2.toNat < 2 ^ 31)
    (h : frameOctets t1 f1 s1.toNat p1 ++ r1 = frameOctets t2 f2 s2.toNat p2 ++ r2) :
    t1 = t2 ∧ f1 = f2 ∧ s1 = s2 ∧ p1 = p2 ∧ r1 = r2 := by
  obtain ⟨-, a2, a3, a4, a5⟩ := front_frame t1 f1 s1 p1 r1 l1 h1
  obtain ⟨-, b2, b3, b4, b5⟩ := front_frame t2 f2 s2 p2 r2 l2 h2
  rw [h] at a2 a3 a4 a5
  have hl : p1.length = p2.length := a2.symm.trans b2
  rw [hl] at a4 a5
  have hp : p1 = p2 := a4.symm.trans b4
  have hr : r1 = r2 := a5.symm.trans b5
  have hf := Res.ok.inj (a3.symm.trans b3)
  injection hf with _ e1 e2 _ e3
  exact ⟨e1, e2, e3, hp, hr⟩

/-! ## C87 -/

/-- C87, one frame. Two frames built for the same table whose octets start the same stream compare
equal, and the streams go on alike: no frame's octets are those of another one, or the beginning of
them. -/
theorem C87_frame [Platform] (table : DynamicTable) (ht : table.entries.length ≤ 2 ^ 31 + 65)
    (f g : Frame) (hf : Proper table f) (hg : Proper table g) (wf wg rf rg : Bytes)
    (h1 : f.serialize = .ok wf) (h2 : g.serialize = .ok wg) (h : wf ++ rf = wg ++ rg) :
    ComparesEqual f g ∧ wf = wg ∧ rf = rg := by
  obtain ⟨ty, fl, sid, p, g1, a1, a2, a3, a4, a5, -⟩ := proper_frame hf ht
  obtain ⟨ty', fl', sid', p', g2, b1, b2, b3, b4, b5, -⟩ := proper_frame hg ht
  obtain rfl := Res.ok.inj (a3.symm.trans h1)
  obtain rfl := Res.ok.inj (b3.symm.trans h2)
  obtain ⟨rfl, rfl, rfl, rfl, rfl⟩ := frameOctets_inj a1 b1 a2 b2 h
  obtain rfl := Res.ok.inj (a4.symm.trans b4)
  have c1 := a5.comparesEqual hf.not_raw
  have c2 := b5.comparesEqual hg.not_raw
  exact ⟨(C78_equivalence f g1 g hf.not_raw).2.2 c1 ((C78_equivalence g g1 g hg.not_raw).2.1 c2),
    rfl, rfl⟩

/-- C87, whole conversations. Two senders that start with the same table and put the same octets on
the wire sent the same frames. -/
theorem C87_conversation [Platform] (c c' d d' : Client) (fs gs : List Frame) (hc : Sent c fs c')
    (hd : Sent d gs d') (ht : c.requestTable = d.requestTable) (wire : Bytes)
    (h1 : c'.conn.sent = c.conn.sent ++ wire) (h2 : d'.conn.sent = d.conn.sent ++ wire) :
    List.Forall₂ ComparesEqual fs gs := by
  have mono : ∀ {c c' : Client} {fs : List Frame}, Sent c fs c' →
      ∃ w, c'.conn.sent = c.conn.sent ++ w := fun h => (C47_stream _ _ _ h).imp fun _ h => h.1
  induction hc generalizing d gs wire with
  | nil c =>
      have : wire = [] := by simpa using h1
      subst this
      cases hd with
      | nil => exact .nil
      | cons _ d1 d2 _ g gs hg htg g1 g2 hd =>
          obtain ⟨ty, fl, sid, p, k, a1, a2, a3, -⟩ := sent_step hg htg g1 g2
          obtain ⟨w, hw⟩ := mono hd
          rw [hw, a3] at h2
          have := congrArg List.length h2
          simp [(front_frame ty fl sid p [] a1 a2).1] at this
  | cons c c1 c2 c' f fs hf htf f1 f2 hc ih =>
      obtain ⟨ty, fl, sid, p, k, a1, a2, a3, a4, a5⟩ := sent_step hf htf f1 f2
      obtain ⟨w, hw⟩ := mono hc
      rw [hw, a3, List.append_assoc] at h1
      have h1 := List.append_cancel_left h1
      cases hd with
      | nil =>
          have : wire = [] := by simpa using h2
          subst this
          have := congrArg List.length h1
          simp [(front_frame ty fl sid p [] a1 a2).1] at this
      | cons _ d1 d2 _ g gs hg htg g1 g2 hd =>
          obtain ⟨ty', fl', sid', p', k', b1, b2, b3, b4, b5⟩ := sent_step hg htg g1 g2
          obtain ⟨w', hw'⟩ := mono hd
          rw [hw', b3, List.append_assoc] at h2
          have h2 := List.append_cancel_left h2
          obtain ⟨rfl, rfl, rfl, rfl, rfl⟩ := frameOctets_inj a1 b1 a2 b2 (h1.trans h2.symm)
          rw [ht, b4] at a4
          injection a4 with e1 e2
          obtain rfl := Res.ok.inj e1
          refine .cons ?_ (ih d2 gs hd e2.symm w hw hw')
          exact (C78_equivalence f k' g hf.not_raw).2.2 (a5.comparesEqual hf.not_raw)
            ((C78_equivalence g k' g hg.not_raw).2.1 (b5.comparesEqual hg.not_raw))

/-- Two RST_STREAM frames that differ in one bit: both meet the hypotheses, their octets differ. -/
example (table : DynamicTable) [Platform] :
    Proper table (.rstStream (RstStreamFrame.new 3 8)) ∧
      Proper table (.rstStream (RstStreamFrame.new 3 9)) ∧
      (Frame.rstStream (RstStreamFrame.new 3 8)).serialize =
        .ok [0, 0, 4, 3, 0, 0, 0, 0, 3, 0, 0, 0, 8] ∧
      (Frame.rstStream (RstStreamFrame.new 3 9)).serialize =
        .ok [0, 0, 4, 3, 0, 0, 0, 0, 3, 0, 0, 0, 9] :=
  ⟨.rstStream 3 8 (by decide), .rstStream 3 9 (by decide), by
    rename_i P; rcases P with ⟨_ | _, _ | _⟩ <;> decide +kernel, by
    rename_i P; rcases P with ⟨_ | _, _ | _⟩ <;> decide +kernel⟩

end Mh2c
