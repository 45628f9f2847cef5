/-
C88 and C89: sequences of calls on one client.
-/
import Verif.Spec.History
import Verif.Props.Transport
import Verif.Props.Client

namespace Mh2c

open Rfc

/-! ### What the calls depend on -/

theorem receiveRaw_half (inc sent : Bytes) (reads writes : List Nat) (rq rs : DynamicTable) (n : Nat) :
    Client.receiveRawData ⟨⟨inc, sent, reads, writes⟩, rq, rs⟩ n =
      ((readLoop reads inc n).1, ⟨⟨(readLoop reads inc n).2.2, sent, (readLoop reads inc n).2.1, writes⟩,
        rq, rs⟩) := rfl

theorem receiveFrame_half [Platform] (inc : Bytes) (reads : List Nat)
    (rs : DynamicTable) : ∃ r inc' reads' rs', ∀ sent writes rq,
    Client.receiveFrame ⟨⟨inc, sent, reads, writes⟩, rq, rs⟩ =
      (r, ⟨⟨inc', sent, reads', writes⟩, rq, rs'⟩) := by
  unfold Client.receiveFrame
  simp only [receiveRaw_half]
  cases h1 : (readLoop reads inc 9).1 with
  | ok raw =>
      simp only
      cases h2 : buildFrameHeader raw with
      | ok fh =>
          simp only
          split
          · cases h3 : (readLoop (readLoop reads inc 9).2.1 (readLoop reads inc 9).2.2
              fh.length.toNat).1 with
            | ok p => simp only [receiveRaw_half, h3, processFrame_eq]; exact ⟨_, _, _, _, fun _ _ _ => rfl⟩
            | throw e => simp only [receiveRaw_half, h3]; exact ⟨_, _, _, _, fun _ _ _ => rfl⟩
            | ub k => simp only [receiveRaw_half, h3]; exact ⟨_, _, _, _, fun _ _ _ => rfl⟩
            | diverge => simp only [receiveRaw_half, h3]; exact ⟨_, _, _, _, fun _ _ _ => rfl⟩
          · simp only [processFrame_eq]; exact ⟨_, _, _, _, fun _ _ _ => rfl⟩
      | throw e => exact ⟨_, _, _, _, fun _ _ _ => rfl⟩
      | ub k => exact ⟨_, _, _, _, fun _ _ _ => rfl⟩
      | diverge => exact ⟨_, _, _, _, fun _ _ _ => rfl⟩
  | throw e => exact ⟨_, _, _, _, fun _ _ _ => rfl⟩
  | ub k => exact ⟨_, _, _, _, fun _ _ _ => rfl⟩
  | diverge => exact ⟨_, _, _, _, fun _ _ _ => rfl⟩

theorem call_receive [Platform] {op : Op} (ho : op.receives = true) {c d : Client}
    (h : SameInput c d) :
    (op.call c).1 = (op.call d).1 ∧ SameInput (op.call c).2 (op.call d).2 ∧
      SameOutput (op.call c).2 c := by
  obtain ⟨⟨inc, sent, reads, writes⟩, rq, rs⟩ := c
  obtain ⟨⟨inc', sent', reads', writes'⟩, rq', rs'⟩ := d
  obtain ⟨rfl, rfl, rfl⟩ : inc = inc' ∧ reads = reads' ∧ rs = rs' := h
  cases op with
  | receiveRaw n => exact ⟨rfl, ⟨rfl, rfl, rfl⟩, rfl, rfl, rfl⟩
  | receiveFrame =>
      obtain ⟨r, inc', reads', rs', h⟩ := receiveFrame_half inc reads rs
      unfold Op.call
      simp only [h]
      exact ⟨trivial, ⟨rfl, rfl, rfl⟩, rfl, rfl, rfl⟩
  | _ => cases ho

theorem call_send [Platform] {op : Op} (ho : op.receives = false) {c d : Client}
    (h : SameOutput c d) :
    (op.call c).1 = (op.call d).1 ∧ SameOutput (op.call c).2 (op.call d).2 ∧
      SameInput (op.call c).2 c := by
  obtain ⟨⟨inc, sent, reads, writes⟩, rq, rs⟩ := c
  obtain ⟨⟨inc', sent', reads', writes'⟩, rq', rs'⟩ := d
  obtain ⟨rfl, rfl, rfl⟩ : sent = sent' ∧ writes = writes' ∧ rq = rq' := h
  cases op with
  | receiveRaw n => cases ho
  | receiveFrame => cases ho
  | sendPreface => exact ⟨rfl, ⟨rfl, rfl, rfl⟩, rfl, rfl, rfl⟩
  | sendRaw data => exact ⟨rfl, ⟨rfl, rfl, rfl⟩, rfl, rfl, rfl⟩
  | sendFrame f =>
      simp only [Op.call, Client.sendFrame]
      cases f.serialize <;> exact ⟨rfl, ⟨rfl, rfl, rfl⟩, rfl, rfl, rfl⟩
  | updateRequestBlock b => exact ⟨rfl, ⟨rfl, rfl, rfl⟩, rfl, rfl, rfl⟩
  | updateRequestSize n =>
      simp only [Op.call, Client.updateRequestTableSize]
      cases rq.updateTableSize n <;> exact ⟨rfl, ⟨rfl, rfl, rfl⟩, rfl, rfl, rfl⟩

/-! ## C88 -/

/-- C88, the receiving half. However sending calls are interleaved with receiving calls, the
receiving calls give what they would give alone, and leave the same input and table. -/
theorem C88_receiving [Platform] (c : Client) (ops : List Op) :
    (runCalls c ops).1.filter (fun x => x.1.receives) = (runCalls c (ops.filter Op.receives)).1 ∧
      (runCalls c ops).2.conn.incoming = (runCalls c (ops.filter Op.receives)).2.conn.incoming ∧
      (runCalls c ops).2.responseTable = (runCalls c (ops.filter Op.receives)).2.responseTable := by
  have key : ∀ (ops : List Op) (c d : Client), SameInput c d →
      (runCalls c ops).1.filter (fun x => x.1.receives) = (runCalls d (ops.filter Op.receives)).1 ∧
      SameInput (runCalls c ops).2 (runCalls d (ops.filter Op.receives)).2 := by
    intro ops
    induction ops with
    | nil => intro c d h; exact ⟨rfl, h⟩
    | cons op ops ih =>
        intro c d h
        cases ho : op.receives with
        | true =>
            obtain ⟨e1, e2, -⟩ := call_receive ho h
            obtain ⟨i1, i2⟩ := ih _ _ e2
            rw [List.filter_cons_of_pos (p := Op.receives) ho]
            simp only [runCalls]
            rw [List.filter_cons_of_pos (by simp [ho]), i1, e1]
            exact ⟨rfl, i2⟩
        | false =>
            obtain ⟨-, -, e2⟩ := call_send ho (⟨rfl, rfl, rfl⟩ : SameOutput c c)
            obtain ⟨i1, i2⟩ := ih (op.call c).2 d
              ⟨e2.1.trans h.1, e2.2.1.trans h.2.1, e2.2.2.trans h.2.2⟩
            rw [List.filter_cons_of_neg (by simp [ho])]
            simp only [runCalls]
            rw [List.filter_cons_of_neg (by simp [ho]), i1]
            exact ⟨rfl, i2⟩
  obtain ⟨h1, h2, -, h3⟩ := key ops c c ⟨rfl, rfl, rfl⟩
  exact ⟨h1, h2, h3⟩

/-- C88, the sending half, likewise: what is on the wire does not depend on the receiving calls. -/
theorem C88_sending [Platform] (c : Client) (ops : List Op) :
    (runCalls c ops).1.filter (fun x => !x.1.receives) =
        (runCalls c (ops.filter (fun o => !o.receives))).1 ∧
      (runCalls c ops).2.conn.sent = (runCalls c (ops.filter (fun o => !o.receives))).2.conn.sent ∧
      (runCalls c ops).2.requestTable =
        (runCalls c (ops.filter (fun o => !o.receives))).2.requestTable := by
  have key : ∀ (ops : List Op) (c d : Client), SameOutput c d →
      (runCalls c ops).1.filter (fun x => !x.1.receives) =
        (runCalls d (ops.filter (fun o => !o.receives))).1 ∧
      SameOutput (runCalls c ops).2 (runCalls d (ops.filter (fun o => !o.receives))).2 := by
    intro ops
    induction ops with
    | nil => intro c d h; exact ⟨rfl, h⟩
    | cons op ops ih =>
        intro c d h
        cases ho : op.receives with
        | false =>
            obtain ⟨e1, e2, -⟩ := call_send ho h
            obtain ⟨i1, i2⟩ := ih _ _ e2
            rw [List.filter_cons_of_pos (by simp [ho])]
            simp only [runCalls]
            rw [List.filter_cons_of_pos (by simp [ho]), i1, e1]
            exact ⟨rfl, i2⟩
        | true =>
            obtain ⟨-, -, e2⟩ := call_receive ho (⟨rfl, rfl, rfl⟩ : SameInput c c)
            obtain ⟨i1, i2⟩ := ih (op.call c).2 d
              ⟨e2.1.trans h.1, e2.2.1.trans h.2.1, e2.2.2.trans h.2.2⟩
            rw [List.filter_cons_of_neg (by simp [ho])]
            simp only [runCalls]
            rw [List.filter_cons_of_neg (by simp [ho]), i1]
            exact ⟨rfl, i2⟩
  obtain ⟨h1, h2, -, h3⟩ := key ops c c ⟨rfl, rfl, rfl⟩
  exact ⟨h1, h2, h3⟩

attribute [local instance] x86 in
/-- A call sequence with all kinds of calls; the filters split it into two non-empty halves. -/
example : let ops : List Op := [.sendPreface, .receiveFrame, .updateRequestSize 100,
      .sendFrame (.rstStream (RstStreamFrame.new 1 8)), .receiveRaw 2]
    let c := Client.new ⟨[0, 0, 1, 0, 1, 0, 0, 0, 1, 104, 105, 106], [], [9, 1, 1, 1], [100, 100]⟩
    (ops.filter Op.receives).length = 2 ∧ (ops.filter (fun o => !o.receives)).length = 3 ∧
      (runCalls c ops).2.conn = ⟨[], (runCalls c ops).2.conn.sent, [], []⟩ ∧
      (runCalls c ops).2.conn.sent.length = 37 := by decide +kernel

/-! ## C89 -/

/-- C89, output. Over any sequence of calls the octets on the wire are those the calls account for,
one after the other: nothing is lost, repeated, reordered or invented. -/
theorem C89_sent [Platform] (c : Client) (ops : List Op) :
    ∃ pieces, (runCalls c ops).2.conn.sent = c.conn.sent ++ pieces.flatten ∧
      List.Forall₂ SentBy (runCalls c ops).1 pieces := by
  have raw : ∀ (op : Op) (data : Bytes) (c : Client), Asked op data →
      op.call c = (.done (c.sendRawData data).1, (c.sendRawData data).2) →
      ∃ piece, (op.call c).2.conn.sent = c.conn.sent ++ piece ∧ SentBy (op, (op.call c).1) piece := by
    intro op data c ha h
    rw [h]
    obtain ⟨sent, writes, h1, -, ⟨h2, h3⟩ | ⟨h2, part, rest, h3, -, h4⟩⟩ := C55_send c data
    · exact ⟨data, by rw [h1]; exact h3, by rw [h2]; exact .returned op data ha⟩
    · exact ⟨part, by rw [h1]; exact h4, by
        rw [h2]; exact .failed op _ data part ha ⟨rest, h3.symm⟩⟩
  have step : ∀ (op : Op) (c : Client), ∃ piece, (op.call c).2.conn.sent = c.conn.sent ++ piece ∧
      SentBy (op, (op.call c).1) piece := by
    intro op c
    cases op with
    | sendPreface => exact raw _ _ c .preface rfl
    | sendRaw data => exact raw _ _ c (.raw data) rfl
    | sendFrame f =>
        cases hs : f.serialize with
        | ok w =>
            refine raw _ w c (.frame f w hs) ?_
            simp only [Op.call, Client.sendFrame, hs]
        | throw e =>
            refine ⟨[], ?_, ?_⟩ <;> simp only [Op.call, Client.sendFrame, hs, List.append_nil]
            exact .unencoded f _ (by simp [hs]) (by simp)
        | ub k =>
            refine ⟨[], ?_, ?_⟩ <;> simp only [Op.call, Client.sendFrame, hs, List.append_nil]
            exact .unencoded f _ (by simp [hs]) (by simp)
        | diverge =>
            refine ⟨[], ?_, ?_⟩ <;> simp only [Op.call, Client.sendFrame, hs, List.append_nil]
            exact .unencoded f _ (by simp [hs]) (by simp)
    | updateRequestBlock b => exact ⟨[], (List.append_nil _).symm, .updateBlock _ _⟩
    | updateRequestSize n =>
        refine ⟨[], ?_, .updateSize _ _⟩
        obtain ⟨t, ht⟩ := (C59_request_table c [] n).2
        simp only [Op.call, ht, List.append_nil]
    | receiveRaw n => exact ⟨[], (List.append_nil _).symm, .receive _ _ rfl⟩
    | receiveFrame =>
        refine ⟨[], ?_, .receive _ _ rfl⟩
        rw [List.append_nil]
        exact (C59_receive c).2.1
  induction ops generalizing c with
  | nil => exact ⟨[], by simp [runCalls], .nil⟩
  | cons op ops ih =>
      obtain ⟨p, h1, h2⟩ := step op c
      obtain ⟨ps, h3, h4⟩ := ih (op.call c).2
      refine ⟨p :: ps, ?_, .cons h2 h4⟩
      rw [runCalls, h3, h1, List.flatten_cons, List.append_assoc]

/-- C89, in particular: if every sending call returned, the wire holds exactly what they were asked
to send. -/
theorem C89_all_sent [Platform] (c : Client) (ops : List Op)
    (h : ∀ x ∈ (runCalls c ops).1, x.1.receives = false → x.2 = .done (.ok ()))
    (asked : List Bytes)
    (ha : List.Forall₂ (fun op w => Asked op w ∨ ((∀ w, ¬ Asked op w) ∧ w = [])) ops asked) :
    (runCalls c ops).2.conn.sent = c.conn.sent ++ asked.flatten := by
  obtain ⟨pieces, h1, h2⟩ := C89_sent c ops
  rw [h1]
  congr 2
  clear h1
  induction ops generalizing c pieces asked with
  | nil => cases ha; cases h2; rfl
  | cons op ops ih =>
      cases ha with
      | cons ha has =>
          cases h2 with
          | cons hp hps =>
              rename_i w ws p ps
              have := ih (op.call c).2 (fun x hx => h x (by simp [runCalls, hx])) ws has ps hps
              subst this
              congr 1
              have hop := h (op, (op.call c).1) (by simp [runCalls])
              generalize (op.call c).1 = o at hp hop
              have uniq : ∀ {op : Op} {a b : Bytes}, Asked op a → Asked op b → a = b := by
                intro op a b ha hb
                cases ha with
                | preface => cases hb; rfl
                | raw => cases hb; rfl
                | frame f w h1 =>
                    cases hb with
                    | frame _ _ h2 => exact Res.ok.inj (h1.symm.trans h2)
              cases hp with
              | returned _ _ hw =>
                  rcases ha with ha | ⟨ha, -⟩
                  · exact uniq hw ha
                  · exact absurd hw (ha _)
              | failed _ e w0 _ hw hpre =>
                  exact absurd (hop (by cases hw <;> rfl)) (by simp)
              | unencoded f r hf hr =>
                  have := hop rfl
                  injection this with this
                  exact absurd this hr
              | updateBlock =>
                  rcases ha with ha | ⟨-, rfl⟩
                  · cases ha
                  · rfl
              | updateSize =>
                  rcases ha with ha | ⟨-, rfl⟩
                  · cases ha
                  · rfl
              | receive _ _ hrec =>
                  rcases ha with ha | ⟨-, rfl⟩
                  · cases ha <;> cases hrec
                  · rfl

/-- C89, input. Over any sequence of calls the input is used up front to back: every octet goes to
one call, and to which is fixed by the calls' results. -/
theorem C89_received [Platform] (c : Client) (ops : List Op) :
    ∃ pieces, c.conn.incoming = pieces.flatten ++ (runCalls c ops).2.conn.incoming ∧
      List.Forall₂ TakenBy (runCalls c ops).1 pieces := by
  have step : ∀ (op : Op) (c : Client), ∃ piece, c.conn.incoming = piece ++ (op.call c).2.conn.incoming ∧
      TakenBy (op, (op.call c).1) piece := by
    intro op c
    cases ho : op.receives with
    | false =>
        obtain ⟨-, -, h, -⟩ := call_send ho (⟨rfl, rfl, rfl⟩ : SameOutput c c)
        exact ⟨[], h.symm, .other _ _ ho⟩
    | true =>
        cases op with
        | receiveRaw n =>
            obtain ⟨inc, reads, h1, -, ⟨got, h2, h3, h4⟩ | ⟨h2, lost, h3, h4⟩⟩ := C56_receive c n
            · refine ⟨got, ?_, ?_⟩
              · simp only [Op.call, h1]; exact h4
              · simp only [Op.call, h2]; subst h3; exact .octets got
            · refine ⟨lost, ?_, ?_⟩
              · simp only [Op.call, h1]; exact h4
              · simp only [Op.call, h2]; exact .short n lost h3
        | receiveFrame =>
            have hfl : ∀ k, 3 ≤ k → frameLength (c.conn.incoming.take k) =
                frameLength c.conn.incoming := by
              intro k hk
              unfold frameLength announced
              rw [List.take_take, Nat.min_eq_left hk]
            rcases C58_one_frame c with ⟨h1, h2⟩ | ⟨h1, -, lost, h3, h4⟩
            · refine ⟨c.conn.incoming.take (frameLength c.conn.incoming), ?_, ?_⟩
              · simp only [Op.call, h2, List.take_append_drop]
              · have h9 : 9 ≤ frameLength c.conn.incoming := by unfold frameLength; omega
                refine .frame _ _ (by rw [List.length_take]; omega) ?_
                rw [hfl _ (by omega), List.length_take]
                omega
            · refine ⟨lost, h4, ?_⟩
              simp only [Op.call, h1]
              refine .cut lost ?_
              by_cases hl : lost.length < 9
              · exact Or.inl hl
              · right
                have : lost = c.conn.incoming.take lost.length := by rw [h4]; simp
                rw [this, hfl _ (by omega), ← this]
                exact h3
        | _ => cases ho
  induction ops generalizing c with
  | nil => exact ⟨[], by simp [runCalls], .nil⟩
  | cons op ops ih =>
      obtain ⟨p, h1, h2⟩ := step op c
      obtain ⟨ps, h3, h4⟩ := ih (op.call c).2
      refine ⟨p :: ps, ?_, .cons h2 h4⟩
      rw [runCalls, List.flatten_cons, List.append_assoc, ← h3, ← h1]


attribute [local instance] x86 in
/-- The connection breaks in the middle of the second frame, one octet after the first read: the
calls account for every octet, and `C89_all_sent` applies to the calls before the break. -/
example :
    let c : Client := ⟨⟨[1, 2, 3, 0, 0, 0, 4, 1, 0, 0, 0, 0, 9], [], [3, 5, 4], [13, 4]⟩, .default, .default⟩
    let ops : List Op := [.sendFrame (.rstStream (RstStreamFrame.new 3 8)), .receiveRaw 3, .receiveFrame,
      .sendFrame (.rstStream (RstStreamFrame.new 5 8))]
    (runCalls c ops).2.conn.sent = [0, 0, 4, 3, 0, 0, 0, 0, 3, 0, 0, 0, 8] ++ [0, 0, 4, 3] ∧
      (runCalls c ops).2.conn.incoming = [9] ∧
      Asked (.sendFrame (.rstStream (RstStreamFrame.new 3 8))) [0, 0, 4, 3, 0, 0, 0, 0, 3, 0, 0, 0, 8] := by
  exact ⟨by decide +kernel, by decide +kernel, .frame _ _ (by decide +kernel)⟩

end Mh2c
