/-
Lemmas about the client operations.
-/
import Verif.Proofs.Transport
import Verif.Proofs.Received
import Verif.Proofs.FrameHeader
import Verif.Proofs.Tables

namespace Mh2c

open Rfc DynamicTable

/-! ### Table updates -/

/-- The part of `receive_frame` after reading, as a function of the response table only. -/
def processTable [Platform] (fh : FrameHeader) (raw : Bytes) (t : DynamicTable) :
    Res Frame × DynamicTable :=
  match buildFrame fh raw t with
  | .ok f =>
      match updateDynamicTableFrame f t with
      | (.ok (), t') => (.ok f, t')
      | (.throw e, t') => (.throw e, t')
      | (.ub k, t') => (.ub k, t')
      | (.diverge, t') => (.diverge, t')
  | .throw e => (.throw e, t)
  | .ub k => (.ub k, t)
  | .diverge => (.diverge, t)

theorem processFrame_eq [Platform] (c : Client) (fh : FrameHeader) (raw : Bytes) :
    c.processFrame fh raw = ((processTable fh raw c.responseTable).1,
      { c with responseTable := (processTable fh raw c.responseTable).2 }) := by
  unfold Client.processFrame processTable
  cases hb : buildFrame fh raw c.responseTable with
  | ok f =>
      simp only
      rcases hu : updateDynamicTableFrame f c.responseTable with ⟨_ | _ | _ | _, t'⟩ <;> rfl
  | throw e => rfl
  | ub k => rfl
  | diverge => rfl

/-! ### receive_frame -/

/-- The client after reading `n` octets, with `reads` left of the schedule. -/
def Client.consumed (c : Client) (reads : List Nat) (n : Nat) : Client :=
  { c with conn := { c.conn with reads := reads, incoming := c.conn.incoming.drop n } }

theorem announced_eq {incoming : Bytes} (h : 9 ≤ incoming.length) :
    ∃ fh, buildFrameHeader (incoming.take 9) = .ok fh ∧
      fh.length.toNat = beValue (incoming.take 3) := by
  refine ⟨_, buildFrameHeader_eq _ (by rw [List.length_take]; omega), ?_⟩
  rw [List.take_take, Nat.min_eq_left (by omega : 3 ≤ 9)]
  have := take_beValue_lt (raw := incoming) 3
  simp only [UInt32.toNat_ofNat']
  omega

/-- Either the transport fails inside the frame, or the frame is processed. -/
theorem receiveFrame_cases [Platform] (c : Client) :
    ∃ reads', reads' <:+ c.conn.reads ∧
      ((∃ k, k < 9 + beValue (c.conn.incoming.take 3) ∧ k ≤ c.conn.incoming.length ∧
        c.receiveFrame = (.throw .runtimeError, c.consumed reads' k)) ∨
       (∃ fh, buildFrameHeader (c.conn.incoming.take 9) = .ok fh ∧
        fh.length.toNat = beValue (c.conn.incoming.take 3) ∧
        9 + beValue (c.conn.incoming.take 3) ≤ c.conn.incoming.length ∧
        reads'.length < c.conn.reads.length ∧
        c.receiveFrame = ((c.consumed reads' (9 + beValue (c.conn.incoming.take 3))).processFrame fh
          ((c.conn.incoming.drop 9).take (beValue (c.conn.incoming.take 3)))))) := by
  obtain ⟨⟨incoming, sent, reads, writes⟩, rt, st⟩ := c
  simp only
  unfold Client.receiveFrame Client.receiveRawData Conn.read Client.consumed
  simp only
  obtain ⟨r1, hs1, h | ⟨k, h1, h2, h3⟩⟩ := readLoop_spec reads incoming 9
  · obtain ⟨h1, h2, h3⟩ := h
    rw [h3]
    simp only
    obtain ⟨fh, hf, hl⟩ := announced_eq h1
    rw [hf]
    simp only
    rw [hl]
    by_cases h0 : beValue (incoming.take 3) > 0
    · rw [if_pos h0]
      obtain ⟨r2, hs2, h | ⟨k, g1, g2, g3⟩⟩ :=
        readLoop_spec r1 (incoming.drop 9) (beValue (incoming.take 3))
      · obtain ⟨g1, -, g3⟩ := h
        rw [g3]
        refine ⟨r2, hs2.trans hs1, Or.inr ⟨fh, rfl, hl, ?_, ?_, ?_⟩⟩
        · rw [List.length_drop] at g1; omega
        · have := h2 (by omega); have := hs2.length_le; omega
        · rw [List.drop_drop]
      · rw [g3]
        rw [List.length_drop] at g2
        refine ⟨r2, hs2.trans hs1, Or.inl ⟨9 + k, by omega, by omega, ?_⟩⟩
        rw [List.drop_drop]
    · rw [if_neg h0]
      have h0' : beValue (incoming.take 3) = 0 := by omega
      refine ⟨r1, hs1, Or.inr ⟨fh, rfl, hl, by omega, h2 (by omega), ?_⟩⟩
      rw [h0', List.take_zero]
  · rw [h3]
    exact ⟨r1, hs1, Or.inl ⟨k, by omega, h2, rfl⟩⟩

/-- A transport that makes progress delivers the frame. -/
theorem receiveFrame_progress [Platform] (c : Client)
    (ha : 9 + beValue (c.conn.incoming.take 3) ≤ c.conn.incoming.length)
    (hl : 9 + beValue (c.conn.incoming.take 3) ≤ c.conn.reads.length)
    (hp : ∀ r ∈ c.conn.reads.take (9 + beValue (c.conn.incoming.take 3)), 0 < r) :
    ∃ fh j, j ≤ 9 + beValue (c.conn.incoming.take 3) ∧
      buildFrameHeader (c.conn.incoming.take 9) = .ok fh ∧
      fh.length.toNat = beValue (c.conn.incoming.take 3) ∧
      c.receiveFrame = ((c.consumed (c.conn.reads.drop j)
        (9 + beValue (c.conn.incoming.take 3))).processFrame fh
          ((c.conn.incoming.drop 9).take (beValue (c.conn.incoming.take 3)))) := by
  obtain ⟨⟨incoming, sent, reads, writes⟩, rt, st⟩ := c
  simp only at *
  unfold Client.receiveFrame Client.receiveRawData Conn.read Client.consumed
  simp only
  have hb := take_beValue_lt (raw := incoming) 3
  obtain ⟨j1, hj1, e1⟩ := readLoop_progress reads incoming 9
    (fun r hr => hp r ((List.take_subset_take_left reads (by omega)) hr)) (by omega) (by omega)
    (by omega)
  rw [e1]
  simp only
  obtain ⟨fh, hf, hl'⟩ := announced_eq (incoming := incoming) (by omega)
  rw [hf]
  simp only
  rw [hl']
  by_cases h0 : beValue (incoming.take 3) > 0
  · rw [if_pos h0]
    obtain ⟨j2, hj2, e2⟩ := readLoop_progress (reads.drop j1) (incoming.drop 9)
      (beValue (incoming.take 3))
      (fun r hr => hp r (by
        rw [List.take_drop] at hr
        exact (List.take_subset_take_left reads (by omega)) (List.mem_of_mem_drop hr)))
      (by rw [List.length_drop]; omega) (by omega) (by rw [List.length_drop]; omega)
    rw [e2]
    refine ⟨fh, j1 + j2, by omega, rfl, hl', ?_⟩
    rw [List.drop_drop, List.drop_drop]
  · rw [if_neg h0]
    have h0' : beValue (incoming.take 3) = 0 := by omega
    refine ⟨fh, j1, by omega, rfl, hl', ?_⟩
    rw [h0', List.take_zero]

/-! ### Updates never throw for decoded blocks -/

theorem bind_ne_throw {α β : Type} {x : Res α} {f : α → Res β} (hx : ∀ e, x ≠ .throw e)
    (hf : ∀ a e, f a ≠ .throw e) (e : Exc) : (x >>= f) ≠ .throw e := by
  cases x with
  | ok a => exact hf a e
  | throw e' => exact absurd rfl (hx e')
  | ub k => simp
  | diverge => simp

theorem resizeRev_ne_throw (es : List Header) (cur max : Nat) (e : Exc) :
    resizeRev es cur max ≠ .throw e := by
  induction es generalizing cur with
  | nil => unfold resizeRev; split <;> simp
  | cons h hs ih =>
      unfold resizeRev
      split
      · exact ih _
      · simp

theorem resize_ne_throw (es : List Header) (cur max : Nat) (e : Exc) :
    resize es cur max ≠ .throw e := by
  unfold resize
  exact bind_ne_throw (resizeRev_ne_throw _ _ _) (fun _ _ => by simp) e

theorem push_ne_throw (t : DynamicTable) (h : Header) (e : Exc) : t.push h ≠ .throw e := by
  unfold push
  exact bind_ne_throw (resize_ne_throw _ _ _) (fun _ _ => by simp) e

theorem updateTableSize_ne_throw (t : DynamicTable) (n : Nat) (e : Exc) :
    t.updateTableSize n ≠ .throw e := by
  unfold updateTableSize
  exact bind_ne_throw (resize_ne_throw _ _ _) (fun _ _ => by simp) e

theorem updateEntry_ne_throw {x : HeaderEntry} (hx : WellTyped x) (t : DynamicTable) (e : Exc) :
    updateDynamicTableEntry x t ≠ .throw e := by
  obtain ⟨p, v⟩ := x
  unfold updateDynamicTableEntry
  rcases hx with ⟨h1, n, h2⟩ | ⟨h1, h, h2⟩
  · simp only at h1 h2
    subst h1 h2
    rw [if_neg (by simp), if_pos rfl]
    exact updateTableSize_ne_throw t n e
  · simp only at h1 h2
    subst h2
    simp only
    split
    · exact push_ne_throw t h e
    · simp

theorem updateDynamicTable_ne_throw {es : HeaderBlock} (hes : ∀ x ∈ es, WellTyped x)
    (t : DynamicTable) (e : Exc) : (updateDynamicTable es t).1 ≠ .throw e := by
  induction es generalizing t with
  | nil => simp [updateDynamicTable]
  | cons x xs ih =>
      unfold updateDynamicTable
      cases hx : updateDynamicTableEntry x t with
      | ok t' => exact ih (fun y hy => hes y (by simp [hy])) t'
      | throw e' => exact absurd hx (updateEntry_ne_throw (hes x (by simp)) t e')
      | ub k => simp
      | diverge => simp

/-- How a built frame acts on the response table. -/
theorem updateFrame_built [Platform] {fh : FrameHeader} {raw : Bytes} {t : DynamicTable} {f : Frame}
    (h : Built fh raw t f) :
    updateDynamicTableFrame f t = match (generalizing := false) f with
      | .headers h => updateDynamicTable h.headerBlock t
      | .pushPromise h => updateDynamicTable h.payload.headerBlock t
      | .continuation h => updateDynamicTable h.headerBlock t
      | .settings s =>
          match s.payload.lookup 1 with
          | some size =>
              match t.updateTableSize size.toNat with
              | .ok t' => (.ok (), t')
              | .throw x => (.throw x, t)
              | .ub k => (.ub k, t)
              | .diverge => (.diverge, t)
          | none => (.ok (), t)
      | .raw _ => (.ub .nullDeref, t)
      | _ => (.ok (), t) := by
  have ht := h.type
  unfold updateDynamicTableFrame
  cases h with
  | data h => rw [ht, h]; rfl
  | headers h f hf => rw [ht, h]; rfl
  | rawHeaders h e hf => rw [ht, h]; rfl
  | priority h f hf => rw [ht, h]; rfl
  | rstStream h f hf => rw [ht, h]; rfl
  | settings h p hp => rw [ht, h]; rfl
  | pushPromise h f hf => rw [ht, h]; rfl
  | ping h f hf => rw [ht, h]; rfl
  | goaway h f hf => rw [ht, h]; rfl
  | windowUpdate h f hf => rw [ht, h]; rfl
  | continuation h f hf => rw [ht, h]; rfl

theorem updateFrame_ne_throw [Platform] {fh : FrameHeader} {raw : Bytes} {t : DynamicTable}
    {f : Frame} (h : Built fh raw t f) (e : Exc) : (updateDynamicTableFrame f t).1 ≠ .throw e := by
  rw [updateFrame_built h]
  cases h with
  | headers h f hf => exact updateDynamicTable_ne_throw (fun x hx => ((headers_entries hf).2 x hx).typed) t e
  | pushPromise h f hf =>
      exact updateDynamicTable_ne_throw (fun x hx => ((pushPromise_entries hf).2 x hx).typed) t e
  | continuation h f hf =>
      exact updateDynamicTable_ne_throw (fun x hx => ((continuation_entries hf).2 x hx).typed) t e
  | settings h p hp =>
      simp only
      split
      · rename_i size _
        cases hu : t.updateTableSize size.toNat with
        | ok t' => simp
        | throw x => exact absurd hu (updateTableSize_ne_throw t _ x)
        | ub k => simp
        | diverge => simp
      · simp
  | _ => simp

/-- If processing throws, the table is as before. -/
theorem processTable_throw [Platform] {fh : FrameHeader} {raw : Bytes} {t : DynamicTable} {e : Exc}
    (h : (processTable fh raw t).1 = .throw e) :
    (processTable fh raw t).2 = t ∧ buildFrame fh raw t = .throw e := by
  unfold processTable at h ⊢
  cases hb : buildFrame fh raw t with
  | ok f =>
      rw [hb] at h
      simp only at h ⊢
      have := updateFrame_ne_throw (built_of_ok hb)
      rcases hu : updateDynamicTableFrame f t with ⟨_ | e' | _ | _, t'⟩ <;> rw [hu] at h
      · cases h
      · exact absurd (by rw [hu]) (this e')
      · cases h
      · cases h
  | throw e' =>
      rw [hb] at h
      exact ⟨rfl, h⟩
  | ub k => rw [hb] at h; cases h
  | diverge => rw [hb] at h; cases h

end Mh2c
