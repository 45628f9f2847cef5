import Verif.Model.Shared
import Verif.Proofs.Client

/-! Threads that share a client: a thread alone, a sending and a receiving thread. -/

namespace Mh2c

/-- A thread alone makes `n` steps. -/
def solo [Platform] : Nat → Worker × Client → Worker × Client
  | 0, s => s
  | n + 1, s => solo n (s.1.step s.2)

theorem solo_add [Platform] (m n : Nat) (s : Worker × Client) :
    solo (m + n) s = solo n (solo m s) := by
  induction m generalizing s with
  | zero => rw [Nat.zero_add]; rfl
  | succ m ih => rw [Nat.add_right_comm]; exact ih _

theorem solo_done [Platform] (n : Nat) (res : List (Op × Outcome)) (c : Client) :
    solo n (⟨[], .idle, res⟩, c) = (⟨[], .idle, res⟩, c) := by
  induction n with
  | zero => rfl
  | succ n ih => exact ih

theorem solo_writing [Platform] (op : Op) (ops : List Op) (res : List (Op × Outcome))
    (writes : List Nat) (c : Client) (rest : Bytes) (hw : c.conn.writes = writes) :
    ∃ n, solo n (⟨op :: ops, .writing rest, res⟩, c) =
      (⟨ops, .idle, res ++ [(op, .done (c.sendRawData rest).1)]⟩, (c.sendRawData rest).2) := by
  induction writes generalizing c rest with
  | nil =>
      obtain ⟨⟨inc, sent, reads, ws⟩, rq, rs⟩ := c
      obtain rfl : ws = [] := hw
      cases rest with
      | nil => exact ⟨1, rfl⟩
      | cons b bs => exact ⟨1, rfl⟩
  | cons w ws ih =>
      obtain ⟨⟨inc, sent, reads, ws'⟩, rq, rs⟩ := c
      obtain rfl : ws' = w :: ws := hw
      cases rest with
      | nil => exact ⟨1, rfl⟩
      | cons b bs =>
          by_cases hk : min w (toIntLength (b :: bs).length) = 0
          · refine ⟨1, ?_⟩
            simp only [solo, Worker.step, Conn.bioWrite, Client.sendRawData, Conn.write]
            rw [writeLoop, if_pos hk, if_pos hk]
            rfl
          · obtain ⟨n, hn⟩ := ih ⟨⟨inc, sent ++ (b :: bs).take (min w (toIntLength (b :: bs).length)), reads, ws⟩, rq, rs⟩
              ((b :: bs).drop (min w (toIntLength (b :: bs).length))) rfl
            refine ⟨n + 1, ?_⟩
            have e1 : (⟨⟨inc, sent, reads, w :: ws⟩, rq, rs⟩ : Client).sendRawData (b :: bs) =
                (⟨⟨inc, sent ++ (b :: bs).take (min w (toIntLength (b :: bs).length)), reads, ws⟩,
                  rq, rs⟩ : Client).sendRawData
                  ((b :: bs).drop (min w (toIntLength (b :: bs).length))) := by
              simp only [Client.sendRawData, Conn.write]
              rw [writeLoop, if_neg hk]
            rw [e1, ← hn]
            show solo n _ = _
            simp only [Worker.step, Conn.bioWrite]
            rw [if_neg hk, if_neg (by simp)]

/-- Reading in a loop, whatever it is for. -/
theorem solo_reading [Platform] (n : Nat) (todo : List Op) (res : List (Op × Outcome))
    (mk : Bytes → Phase) (fail : Worker)
    (hstep : ∀ got c, got.length < n → Worker.step ⟨todo, mk got, res⟩ c =
      match c.conn.bioRead (n - got.length) with
      | (some more, conn) => (⟨todo, mk (got ++ more), res⟩, { c with conn := conn })
      | (none, conn) => (fail, { c with conn := conn }))
    (reads : List Nat) (c : Client) (got : Bytes) (hg : got.length ≤ n)
    (hr : c.conn.reads = reads) :
    (∃ b, (c.receiveRawData (n - got.length)).1 = .ok b ∧ (got ++ b).length = n ∧ ∃ m,
      solo m (⟨todo, mk got, res⟩, c) =
        (⟨todo, mk (got ++ b), res⟩, (c.receiveRawData (n - got.length)).2)) ∨
    ((c.receiveRawData (n - got.length)).1 = .throw .runtimeError ∧ ∃ m,
      solo m (⟨todo, mk got, res⟩, c) = (fail, (c.receiveRawData (n - got.length)).2)) := by
  induction reads generalizing c got with
  | nil =>
      obtain ⟨⟨inc, sent, rd, ws⟩, rq, rs⟩ := c
      obtain rfl : rd = [] := hr
      by_cases h : got.length = n
      · refine Or.inl ⟨[], ?_, by simpa using h, 0, ?_⟩
        · rw [h, Nat.sub_self]; rfl
        · rw [h, Nat.sub_self, List.append_nil]; rfl
      · obtain ⟨l, hl⟩ : ∃ l, n - got.length = l + 1 := ⟨n - got.length - 1, by omega⟩
        have hs := hstep got ⟨⟨inc, sent, [], ws⟩, rq, rs⟩ (by omega)
        rw [hl] at hs ⊢
        exact Or.inr ⟨rfl, 1, hs⟩
  | cons r rd ih =>
      obtain ⟨⟨inc, sent, rd', ws⟩, rq, rs⟩ := c
      obtain rfl : rd' = r :: rd := hr
      by_cases h : got.length = n
      · refine Or.inl ⟨[], ?_, by simpa using h, 0, ?_⟩
        · rw [h, Nat.sub_self]; rfl
        · rw [h, Nat.sub_self, List.append_nil]; rfl
      · obtain ⟨l, hl⟩ : ∃ l, n - got.length = l + 1 := ⟨n - got.length - 1, by omega⟩
        have hs := hstep got ⟨⟨inc, sent, r :: rd, ws⟩, rq, rs⟩ (by omega)
        rw [hl] at hs
        by_cases hk : min r (min (toIntLength (l + 1)) inc.length) = 0
        · refine Or.inr ⟨?_, 1, ?_⟩
          · rw [hl]
            simp only [Client.receiveRawData, Conn.read]
            rw [readLoop, if_pos hk]
          · rw [hl]
            show Worker.step _ _ = _
            rw [hs]
            simp only [Client.receiveRawData, Conn.read, Conn.bioRead]
            rw [readLoop, if_pos hk, if_pos hk]
        · have hb : min r (min (toIntLength (l + 1)) inc.length) ≤ l + 1 := by
            have : toIntLength (l + 1) ≤ l + 1 := by unfold toIntLength; split <;> omega
            omega
          have hb' : min r (min (toIntLength (l + 1)) inc.length) ≤ inc.length := by omega
          have e1 : (⟨⟨inc, sent, r :: rd, ws⟩, rq, rs⟩ : Client).receiveRawData (l + 1) =
              ((do
                let b ← ((⟨⟨inc.drop (min r (min (toIntLength (l + 1)) inc.length)), sent, rd, ws⟩, rq, rs⟩ : Client).receiveRawData
                  (l + 1 - min r (min (toIntLength (l + 1)) inc.length))).1
                return inc.take (min r (min (toIntLength (l + 1)) inc.length)) ++ b),
               ((⟨⟨inc.drop (min r (min (toIntLength (l + 1)) inc.length)), sent, rd, ws⟩, rq, rs⟩ : Client).receiveRawData
                  (l + 1 - min r (min (toIntLength (l + 1)) inc.length))).2) := by
            simp only [Client.receiveRawData, Conn.read]
            rw [readLoop, if_neg hk]
            generalize readLoop _ _ _ = x
            obtain ⟨a | e | k | _, y, z⟩ := x <;> rfl
          generalize hkk : min r (min (toIntLength (l + 1)) inc.length) = k at *
          have e2 : Worker.step ⟨todo, mk got, res⟩ ⟨⟨inc, sent, r :: rd, ws⟩, rq, rs⟩ =
              (⟨todo, mk (got ++ inc.take k), res⟩, ⟨⟨inc.drop k, sent, rd, ws⟩, rq, rs⟩) := by
            rw [hs]
            simp only [Conn.bioRead, hkk]
            rw [if_neg hk]
          have hlen : (got ++ inc.take k).length = got.length + k := by
            rw [List.length_append, List.length_take, Nat.min_eq_left hb']
          have hsub : n - (got ++ inc.take k).length = l + 1 - k := by omega
          have := ih ⟨⟨inc.drop k, sent, rd, ws⟩, rq, rs⟩ (got ++ inc.take k) (by omega) rfl
          rw [hsub] at this
          rw [hl, e1]
          rcases this with ⟨b, h1, h2, m, h3⟩ | ⟨h1, m, h3⟩
          · refine Or.inl ⟨inc.take k ++ b, by rw [h1]; rfl, by rw [← List.append_assoc]; exact h2,
              m + 1, ?_⟩
            show solo m (Worker.step _ _) = _
            rw [e2, h3, List.append_assoc]
          · refine Or.inr ⟨by rw [h1]; rfl, m + 1, ?_⟩
            show solo m (Worker.step _ _) = _
            rw [e2, h3]


theorem solo_one [Platform] (s : Worker × Client) : solo 1 s = s.1.step s.2 := rfl

/-- A call made by a thread alone does what it does as a whole. -/
theorem solo_call [Platform] (op : Op) (ops : List Op) (res : List (Op × Outcome)) (c : Client) :
    ∃ n, solo n (⟨op :: ops, .idle, res⟩, c) =
      (⟨ops, .idle, res ++ [(op, (op.call c).1)]⟩, (op.call c).2) := by
  cases op with
  | sendPreface =>
      obtain ⟨n, h⟩ := solo_writing .sendPreface ops res _ c
        (bstr "PRI * HTTP/2.0\r\n\r\nSM\r\n\r\n") rfl
      exact ⟨n + 1, h⟩
  | sendRaw data =>
      obtain ⟨n, h⟩ := solo_writing (.sendRaw data) ops res _ c data rfl
      exact ⟨n + 1, h⟩
  | sendFrame f =>
      cases hf : f.serialize with
      | ok raw =>
          obtain ⟨n, h⟩ := solo_writing (.sendFrame f) ops res _ c raw rfl
          refine ⟨n + 1, ?_⟩
          show solo n (Worker.step _ _) = _
          simp only [Worker.step, Op.call, Client.sendFrame, hf]
          exact h
      | throw e =>
          refine ⟨1, ?_⟩
          rw [solo_one]
          simp only [Worker.step, Op.call, Client.sendFrame, hf]
          rfl
      | ub k =>
          refine ⟨1, ?_⟩
          rw [solo_one]
          simp only [Worker.step, Op.call, Client.sendFrame, hf]
          rfl
      | diverge =>
          refine ⟨1, ?_⟩
          rw [solo_one]
          simp only [Worker.step, Op.call, Client.sendFrame, hf]
          rfl
  | updateRequestBlock b => exact ⟨1, rfl⟩
  | updateRequestSize n => exact ⟨1, rfl⟩
  | receiveRaw n =>
      have := solo_reading n (.receiveRaw n :: ops) res (.readingRaw n)
        (⟨ops, .idle, res ++ [(.receiveRaw n, .octets (.throw .runtimeError))]⟩) (by
          intro got c h
          simp only [Worker.step]
          rw [if_neg (by omega)]
          rfl) _ c [] (by simp) rfl
      simp only [List.length_nil, Nat.sub_zero, List.nil_append] at this
      rcases this with ⟨b, h1, h2, m, h3⟩ | ⟨h1, m, h3⟩
      · refine ⟨1 + (m + 1), ?_⟩
        rw [solo_add, solo_add]
        have : solo 1 (⟨.receiveRaw n :: ops, .idle, res⟩, c) =
          (⟨.receiveRaw n :: ops, .readingRaw n [], res⟩, c) := rfl
        rw [this, h3]
        rw [solo_one]
        simp only [Worker.step]
        rw [if_pos (by omega)]
        simp only [Op.call, h1]
        rfl
      · refine ⟨1 + m, ?_⟩
        rw [solo_add]
        have : solo 1 (⟨.receiveRaw n :: ops, .idle, res⟩, c) =
          (⟨.receiveRaw n :: ops, .readingRaw n [], res⟩, c) := rfl
        rw [this, h3]
        simp only [Op.call, h1]
  | receiveFrame =>
      have h9 := solo_reading 9 (.receiveFrame :: ops) res .readingHeader
        (⟨ops, .idle, res ++ [(.receiveFrame, .frame (.throw .runtimeError))]⟩) (by
          intro got c h
          simp only [Worker.step]
          rw [if_neg (by omega)]
          rfl) _ c [] (by simp) rfl
      simp only [List.length_nil, Nat.sub_zero, List.nil_append] at h9
      have e0 : solo 1 (⟨.receiveFrame :: ops, .idle, res⟩, c) =
        (⟨.receiveFrame :: ops, .readingHeader [], res⟩, c) := rfl
      have ecall : Op.receiveFrame.call c = (.frame c.receiveFrame.1, c.receiveFrame.2) := rfl
      rw [ecall]
      rcases h9 with ⟨b, h1, h2, m, h3⟩ | ⟨h1, m, h3⟩
      · have r9 : c.receiveRawData 9 = (.ok b, (c.receiveRawData 9).2) := by rw [← h1]
        generalize (c.receiveRawData 9).2 = c1 at *
        cases hfh : buildFrameHeader b with
        | ok fh =>
            by_cases hl : fh.length.toNat > 0
            · have hp := solo_reading fh.length.toNat (.receiveFrame :: ops) res (.readingPayload fh)
                (⟨ops, .idle, res ++ [(.receiveFrame, .frame (.throw .runtimeError))]⟩) (by
                  intro got c h
                  simp only [Worker.step]
                  rw [if_neg (by omega)]
                  rfl) _ c1 [] (by simp) rfl
              simp only [List.length_nil, Nat.sub_zero, List.nil_append] at hp
              have e1 : solo 1 (⟨.receiveFrame :: ops, .readingHeader b, res⟩, c1) =
                  (⟨.receiveFrame :: ops, .readingPayload fh [], res⟩, c1) := by
                rw [solo_one]
                simp only [Worker.step]
                rw [if_pos (by omega)]
                simp only [hfh]
                rw [if_pos hl]
              rcases hp with ⟨raw, p1, p2, k, p3⟩ | ⟨p1, k, p3⟩
              · have rp : c1.receiveRawData fh.length.toNat =
                    (.ok raw, (c1.receiveRawData fh.length.toNat).2) := by rw [← p1]
                refine ⟨1 + (m + (1 + (k + 1))), ?_⟩
                rw [solo_add, solo_add, solo_add, solo_add, e0, h3, e1, p3]
                rw [solo_one]
                simp only [Worker.step]
                rw [if_pos (by omega)]
                unfold Client.receiveFrame
                rw [r9]
                simp only [hfh]
                rw [if_pos hl, rp]
                rfl
              · have rp : c1.receiveRawData fh.length.toNat =
                    (.throw .runtimeError, (c1.receiveRawData fh.length.toNat).2) := by rw [← p1]
                refine ⟨1 + (m + (1 + k)), ?_⟩
                rw [solo_add, solo_add, solo_add, e0, h3, e1, p3]
                unfold Client.receiveFrame
                rw [r9]
                simp only [hfh]
                rw [if_pos hl, rp]
            · refine ⟨1 + (m + 1), ?_⟩
              rw [solo_add, solo_add, e0, h3]
              rw [solo_one]
              simp only [Worker.step]
              rw [if_pos (by omega)]
              unfold Client.receiveFrame
              rw [r9]
              simp only [hfh]
              rw [if_neg hl, if_neg hl]
              rfl
        | throw e =>
            refine ⟨1 + (m + 1), ?_⟩
            rw [solo_add, solo_add, e0, h3]
            rw [solo_one]
            simp only [Worker.step]
            rw [if_pos (by omega)]
            unfold Client.receiveFrame
            rw [r9]
            simp only [hfh]
            rfl
        | ub e =>
            refine ⟨1 + (m + 1), ?_⟩
            rw [solo_add, solo_add, e0, h3]
            rw [solo_one]
            simp only [Worker.step]
            rw [if_pos (by omega)]
            unfold Client.receiveFrame
            rw [r9]
            simp only [hfh]
            rfl
        | diverge =>
            refine ⟨1 + (m + 1), ?_⟩
            rw [solo_add, solo_add, e0, h3]
            rw [solo_one]
            simp only [Worker.step]
            rw [if_pos (by omega)]
            unfold Client.receiveFrame
            rw [r9]
            simp only [hfh]
            rfl
      · have r9 : c.receiveRawData 9 = (.throw .runtimeError, (c.receiveRawData 9).2) := by rw [← h1]
        refine ⟨1 + m, ?_⟩
        rw [solo_add, e0, h3]
        unfold Client.receiveFrame
        rw [r9]

theorem solo_calls [Platform] (ops : List Op) (res : List (Op × Outcome)) (c : Client) :
    ∃ n, ∀ m, n ≤ m → solo m (⟨ops, .idle, res⟩, c) =
      (⟨[], .idle, res ++ (runCalls c ops).1⟩, (runCalls c ops).2) := by
  induction ops generalizing res c with
  | nil => exact ⟨0, fun m _ => by rw [solo_done]; simp [runCalls]⟩
  | cons op ops ih =>
      obtain ⟨n1, h1⟩ := solo_call op ops res c
      obtain ⟨n2, h2⟩ := ih (res ++ [(op, (op.call c).1)]) (op.call c).2
      refine ⟨n1 + n2, fun m hm => ?_⟩
      obtain ⟨k, rfl⟩ : ∃ k, m = n1 + k := ⟨m - n1, by omega⟩
      rw [solo_add, h1, h2 k (by omega)]
      simp [runCalls]

/-- Between sending calls or in one. -/
def SendingWorker (w : Worker) : Prop :=
  (∀ op ∈ w.todo, op.receives = false) ∧ (w.phase = .idle ∨ ∃ rest, w.phase = .writing rest)

/-- Between receiving calls or in one. -/
def ReceivingWorker (w : Worker) : Prop :=
  (∀ op ∈ w.todo, op.receives = true) ∧ ∀ rest, w.phase ≠ .writing rest

theorem finish_sending {w : Worker} (o : Outcome) (h : SendingWorker w) :
    SendingWorker (w.finish o) := by
  obtain ⟨todo, ph, res⟩ := w
  cases todo with
  | nil => exact h
  | cons op ops => exact ⟨fun x hx => h.1 x (List.mem_cons_of_mem _ hx), Or.inl rfl⟩

theorem finish_receiving {w : Worker} (o : Outcome) (h : ReceivingWorker w) :
    ReceivingWorker (w.finish o) := by
  obtain ⟨todo, ph, res⟩ := w
  cases todo with
  | nil => exact h
  | cons op ops => exact ⟨fun x hx => h.1 x (List.mem_cons_of_mem _ hx), nofun⟩

/-- A step of a sending thread looks at nothing but the sending half of the client, and changes
nothing else. -/
theorem step_sending [Platform] {w : Worker} (hw : SendingWorker w) {c d : Client}
    (h : SameOutput c d) :
    (w.step c).1 = (w.step d).1 ∧ SameOutput (w.step c).2 (w.step d).2 ∧
      SameInput (w.step c).2 c ∧ SendingWorker (w.step c).1 := by
  obtain ⟨⟨inc, sent, rd, ws⟩, rq, rs⟩ := c
  obtain ⟨⟨inc', sent', rd', ws'⟩, rq', rs'⟩ := d
  obtain ⟨h1, h2, h3⟩ := h
  simp only at h1 h2 h3
  subst h1 h2 h3
  obtain ⟨todo, ph, res⟩ := w
  have hw' := hw
  obtain ⟨ht, hp⟩ := hw
  rcases hp with hp | ⟨rest, hp⟩ <;> simp only at hp <;> subst hp
  · cases todo with
    | nil => exact ⟨rfl, ⟨rfl, rfl, rfl⟩, ⟨rfl, rfl, rfl⟩, hw'⟩
    | cons op ops =>
        have ho := ht op (List.mem_cons_self ..)
        cases op with
        | receiveRaw => simp [Op.receives] at ho
        | receiveFrame => simp [Op.receives] at ho
        | sendPreface => exact ⟨rfl, ⟨rfl, rfl, rfl⟩, ⟨rfl, rfl, rfl⟩, ht, Or.inr ⟨_, rfl⟩⟩
        | sendRaw => exact ⟨rfl, ⟨rfl, rfl, rfl⟩, ⟨rfl, rfl, rfl⟩, ht, Or.inr ⟨_, rfl⟩⟩
        | sendFrame f =>
            simp only [Worker.step]
            cases hf : f.serialize with
            | ok raw => exact ⟨rfl, ⟨rfl, rfl, rfl⟩, ⟨rfl, rfl, rfl⟩, ht, Or.inr ⟨_, rfl⟩⟩
            | throw e =>
                exact ⟨rfl, ⟨rfl, rfl, rfl⟩, ⟨rfl, rfl, rfl⟩, finish_sending _ hw'⟩
            | ub e =>
                exact ⟨rfl, ⟨rfl, rfl, rfl⟩, ⟨rfl, rfl, rfl⟩, finish_sending _ hw'⟩
            | diverge =>
                exact ⟨rfl, ⟨rfl, rfl, rfl⟩, ⟨rfl, rfl, rfl⟩, finish_sending _ hw'⟩
        | updateRequestBlock b =>
            exact ⟨rfl, ⟨rfl, rfl, rfl⟩, ⟨rfl, rfl, rfl⟩, finish_sending _ hw'⟩
        | updateRequestSize n =>
            simp only [Worker.step, Client.updateRequestTableSize]
            cases rq.updateTableSize n <;>
              exact ⟨rfl, ⟨rfl, rfl, rfl⟩, ⟨rfl, rfl, rfl⟩, finish_sending _ hw'⟩
  · simp only [Worker.step]
    split
    · exact ⟨rfl, ⟨rfl, rfl, rfl⟩, ⟨rfl, rfl, rfl⟩, finish_sending _ hw'⟩
    · simp only [Conn.bioWrite]
      cases ws with
      | nil => exact ⟨rfl, ⟨rfl, rfl, rfl⟩, ⟨rfl, rfl, rfl⟩, finish_sending _ hw'⟩
      | cons w ws =>
          by_cases hk : min w (toIntLength rest.length) = 0
          · simp only [if_pos hk]
            exact ⟨trivial, ⟨rfl, rfl, rfl⟩, ⟨rfl, rfl, rfl⟩, finish_sending _ hw'⟩
          · simp only [if_neg hk]
            exact ⟨trivial, ⟨rfl, rfl, rfl⟩, ⟨rfl, rfl, rfl⟩, ht, Or.inr ⟨_, rfl⟩⟩

/-- What is done with the result of `BIO_read`, whatever it is for. -/
private theorem read_step [Platform] (n : Nat) (todo : List Op) (res : List (Op × Outcome))
    (ph : Bytes → Phase) (fail : Worker) (inc sent sent' : Bytes) (rd ws ws' : List Nat)
    (rq rq' rs : DynamicTable) (x : Client → Worker × Client)
    (hx : ∀ c : Client, x c = match c.conn.bioRead n with
      | (some more, conn) => (⟨todo, ph more, res⟩, { c with conn := conn })
      | (none, conn) => (fail, { c with conn := conn }))
    (hfail : ReceivingWorker fail) (hgo : ∀ more, ReceivingWorker ⟨todo, ph more, res⟩) :
    (x ⟨⟨inc, sent, rd, ws⟩, rq, rs⟩).1 = (x ⟨⟨inc, sent', rd, ws'⟩, rq', rs⟩).1 ∧
      SameInput (x ⟨⟨inc, sent, rd, ws⟩, rq, rs⟩).2 (x ⟨⟨inc, sent', rd, ws'⟩, rq', rs⟩).2 ∧
      SameOutput (x ⟨⟨inc, sent, rd, ws⟩, rq, rs⟩).2 ⟨⟨inc, sent, rd, ws⟩, rq, rs⟩ ∧
      ReceivingWorker (x ⟨⟨inc, sent, rd, ws⟩, rq, rs⟩).1 := by
  rw [hx, hx]
  simp only [Conn.bioRead]
  cases rd with
  | nil => exact ⟨rfl, ⟨rfl, rfl, rfl⟩, ⟨rfl, rfl, rfl⟩, hfail⟩
  | cons r rd =>
      by_cases hk : min r (min (toIntLength n) inc.length) = 0
      · simp only [if_pos hk]
        exact ⟨trivial, ⟨rfl, rfl, rfl⟩, ⟨rfl, rfl, rfl⟩, hfail⟩
      · simp only [if_neg hk]
        exact ⟨trivial, ⟨rfl, rfl, rfl⟩, ⟨rfl, rfl, rfl⟩, hgo _⟩

private theorem process_step [Platform] (w : Worker) (hw : ReceivingWorker w) (fh : FrameHeader)
    (raw inc sent sent' : Bytes) (rd ws ws' : List Nat) (rq rq' rs : DynamicTable) :
    (w.process ⟨⟨inc, sent, rd, ws⟩, rq, rs⟩ fh raw).1 =
        (w.process ⟨⟨inc, sent', rd, ws'⟩, rq', rs⟩ fh raw).1 ∧
      SameInput (w.process ⟨⟨inc, sent, rd, ws⟩, rq, rs⟩ fh raw).2
        (w.process ⟨⟨inc, sent', rd, ws'⟩, rq', rs⟩ fh raw).2 ∧
      SameOutput (w.process ⟨⟨inc, sent, rd, ws⟩, rq, rs⟩ fh raw).2 ⟨⟨inc, sent, rd, ws⟩, rq, rs⟩ ∧
      ReceivingWorker (w.process ⟨⟨inc, sent, rd, ws⟩, rq, rs⟩ fh raw).1 := by
  simp only [Worker.process, Client.processFrame]
  cases buildFrame fh raw rs with
  | ok f =>
      simp only
      generalize updateDynamicTableFrame f rs = y
      obtain ⟨_ | _ | _ | _, t⟩ := y <;> exact ⟨rfl, ⟨rfl, rfl, rfl⟩, ⟨rfl, rfl, rfl⟩, finish_receiving _ hw⟩
  | throw e => exact ⟨rfl, ⟨rfl, rfl, rfl⟩, ⟨rfl, rfl, rfl⟩, finish_receiving _ hw⟩
  | ub e => exact ⟨rfl, ⟨rfl, rfl, rfl⟩, ⟨rfl, rfl, rfl⟩, finish_receiving _ hw⟩
  | diverge => exact ⟨rfl, ⟨rfl, rfl, rfl⟩, ⟨rfl, rfl, rfl⟩, finish_receiving _ hw⟩

/-- A step of a receiving thread, likewise. -/
theorem step_receiving [Platform] {w : Worker} (hw : ReceivingWorker w) {c d : Client}
    (h : SameInput c d) :
    (w.step c).1 = (w.step d).1 ∧ SameInput (w.step c).2 (w.step d).2 ∧
      SameOutput (w.step c).2 c ∧ ReceivingWorker (w.step c).1 := by
  obtain ⟨⟨inc, sent, rd, ws⟩, rq, rs⟩ := c
  obtain ⟨⟨inc', sent', rd', ws'⟩, rq', rs'⟩ := d
  obtain ⟨h1, h2, h3⟩ := h
  simp only at h1 h2 h3
  subst h1 h2 h3
  obtain ⟨todo, ph, res⟩ := w
  have hw' := hw
  obtain ⟨ht, hp⟩ := hw
  cases ph with
  | writing rest => exact absurd rfl (hp rest)
  | idle =>
      cases todo with
      | nil => exact ⟨rfl, ⟨rfl, rfl, rfl⟩, ⟨rfl, rfl, rfl⟩, hw'⟩
      | cons op ops =>
          have ho := ht op (List.mem_cons_self ..)
          cases op with
          | receiveRaw => exact ⟨rfl, ⟨rfl, rfl, rfl⟩, ⟨rfl, rfl, rfl⟩, ht, nofun⟩
          | receiveFrame => exact ⟨rfl, ⟨rfl, rfl, rfl⟩, ⟨rfl, rfl, rfl⟩, ht, nofun⟩
          | sendPreface => simp [Op.receives] at ho
          | sendRaw => simp [Op.receives] at ho
          | sendFrame => simp [Op.receives] at ho
          | updateRequestBlock => simp [Op.receives] at ho
          | updateRequestSize => simp [Op.receives] at ho
  | readingRaw n got =>
      by_cases hn : n ≤ got.length
      · simp only [Worker.step, if_pos hn]
        exact ⟨trivial, ⟨rfl, rfl, rfl⟩, ⟨rfl, rfl, rfl⟩, finish_receiving _ hw'⟩
      · exact read_step (n - got.length) todo res (fun more => .readingRaw n (got ++ more))
          (Worker.finish ⟨todo, .readingRaw n got, res⟩ (.octets (.throw .runtimeError)))
          _ _ _ _ _ _ _ _ _ (Worker.step ⟨todo, .readingRaw n got, res⟩)
          (fun c => by simp only [Worker.step, if_neg hn]; rfl) (finish_receiving _ hw')
          (fun more => ⟨ht, nofun⟩)
  | readingHeader got =>
      by_cases hn : 9 ≤ got.length
      · simp only [Worker.step, if_pos hn]
        cases buildFrameHeader got with
        | ok fh =>
            by_cases hl : fh.length.toNat > 0
            · simp only [if_pos hl]
              exact ⟨trivial, ⟨rfl, rfl, rfl⟩, ⟨rfl, rfl, rfl⟩, ht, nofun⟩
            · simp only [if_neg hl]
              exact process_step _ hw' _ _ _ _ _ _ _ _ _ _ _
        | throw e => exact ⟨rfl, ⟨rfl, rfl, rfl⟩, ⟨rfl, rfl, rfl⟩, finish_receiving _ hw'⟩
        | ub e => exact ⟨rfl, ⟨rfl, rfl, rfl⟩, ⟨rfl, rfl, rfl⟩, finish_receiving _ hw'⟩
        | diverge => exact ⟨rfl, ⟨rfl, rfl, rfl⟩, ⟨rfl, rfl, rfl⟩, finish_receiving _ hw'⟩
      · exact read_step (9 - got.length) todo res (fun more => .readingHeader (got ++ more))
          (Worker.finish ⟨todo, .readingHeader got, res⟩ (.frame (.throw .runtimeError)))
          _ _ _ _ _ _ _ _ _ (Worker.step ⟨todo, .readingHeader got, res⟩)
          (fun c => by simp only [Worker.step, if_neg hn]; rfl) (finish_receiving _ hw')
          (fun more => ⟨ht, nofun⟩)
  | readingPayload fh got =>
      by_cases hn : fh.length.toNat ≤ got.length
      · simp only [Worker.step, if_pos hn]
        exact process_step _ hw' _ _ _ _ _ _ _ _ _ _ _
      · exact read_step (fh.length.toNat - got.length) todo res
          (fun more => .readingPayload fh (got ++ more))
          (Worker.finish ⟨todo, .readingPayload fh got, res⟩ (.frame (.throw .runtimeError)))
          _ _ _ _ _ _ _ _ _ (Worker.step ⟨todo, .readingPayload fh got, res⟩)
          (fun c => by simp only [Worker.step, if_neg hn]; rfl) (finish_receiving _ hw')
          (fun more => ⟨ht, nofun⟩)

private theorem SameOutput.trans {a b c : Client} (h : SameOutput a b) (h' : SameOutput b c) :
    SameOutput a c := ⟨h.1.trans h'.1, h.2.1.trans h'.2.1, h.2.2.trans h'.2.2⟩

private theorem SameInput.trans {a b c : Client} (h : SameInput a b) (h' : SameInput b c) :
    SameInput a c := ⟨h.1.trans h'.1, h.2.1.trans h'.2.1, h.2.2.trans h'.2.2⟩

/-- A sending and a receiving thread make the steps they would make alone. -/
theorem run_two [Platform] (schedule : List Nat) (s : Shared) (d e : Client)
    (h0 : SendingWorker (s.workers 0)) (h1 : ReceivingWorker (s.workers 1))
    (hs : ∀ i, 1 < i → (s.workers i).todo = [] ∧ (s.workers i).phase = .idle)
    (hd : SameOutput s.client d) (he : SameInput s.client e) :
    (s.run schedule).workers 0 = (solo (schedule.count 0) (s.workers 0, d)).1 ∧
    SameOutput (s.run schedule).client (solo (schedule.count 0) (s.workers 0, d)).2 ∧
    (s.run schedule).workers 1 = (solo (schedule.count 1) (s.workers 1, e)).1 ∧
    SameInput (s.run schedule).client (solo (schedule.count 1) (s.workers 1, e)).2 := by
  induction schedule generalizing s d e with
  | nil => exact ⟨rfl, hd, rfl, he⟩
  | cons i schedule ih =>
      show ((s.step i).run schedule).workers 0 = _ ∧ SameOutput ((s.step i).run schedule).client _ ∧
        ((s.step i).run schedule).workers 1 = _ ∧ SameInput ((s.step i).run schedule).client _
      match i with
      | 0 =>
          obtain ⟨a1, a2, a3, a4⟩ := step_sending h0 hd
          have := ih (s.step 0) ((s.workers 0).step d).2 e a4 h1 (fun i hi => by
            have : (s.step 0).workers i = s.workers i := if_neg (by omega)
            rw [this]; exact hs i hi) a2 (a3.trans he)
          rw [List.count_cons_self, List.count_cons_of_ne (by decide)]
          have e0 : (s.step 0).workers 0 = ((s.workers 0).step d).1 := a1
          rw [e0] at this
          exact this
      | 1 =>
          obtain ⟨a1, a2, a3, a4⟩ := step_receiving h1 he
          have := ih (s.step 1) d ((s.workers 1).step e).2 h0 a4 (fun i hi => by
            have : (s.step 1).workers i = s.workers i := if_neg (by omega)
            rw [this]; exact hs i hi) (a3.trans hd) a2
          rw [List.count_cons_self, List.count_cons_of_ne (by decide)]
          have e0 : (s.step 1).workers 1 = ((s.workers 1).step e).1 := a1
          rw [e0] at this
          exact this
      | i + 2 =>
          rw [List.count_cons_of_ne (by omega), List.count_cons_of_ne (by omega)]
          obtain ⟨b1, b2⟩ := hs (i + 2) (by omega)
          have est : (s.workers (i + 2)).step s.client = (s.workers (i + 2), s.client) := by
            unfold Worker.step
            rw [b2]
            simp only [b1]
          have e0 : s.step (i + 2) = s := by
            unfold Shared.step
            rw [est]
            obtain ⟨c, ws⟩ := s
            simp only [Shared.mk.injEq, true_and]
            funext j
            split
            · subst_vars; rfl
            · rfl
          rw [e0]
          exact ih s d e h0 h1 hs hd he

theorem step_shape [Platform] (w : Worker) (c : Client) :
    (∃ o, (w.step c).1 = w.finish o) ∨
      ((w.step c).1.todo = w.todo ∧ (w.todo = [] → w.phase = .idle → (w.step c).1.phase = .idle)) := by
  obtain ⟨todo, ph, res⟩ := w
  cases ph with
  | idle =>
      cases todo with
      | nil => exact Or.inr ⟨rfl, fun _ _ => rfl⟩
      | cons op ops =>
          cases op with
          | sendFrame f =>
              simp only [Worker.step]
              cases f.serialize with
              | ok raw => exact Or.inr ⟨rfl, nofun⟩
              | throw e => exact Or.inl ⟨_, rfl⟩
              | ub e => exact Or.inl ⟨_, rfl⟩
              | diverge => exact Or.inl ⟨_, rfl⟩
          | sendPreface => exact Or.inr ⟨rfl, nofun⟩
          | sendRaw => exact Or.inr ⟨rfl, nofun⟩
          | receiveRaw => exact Or.inr ⟨rfl, nofun⟩
          | receiveFrame => exact Or.inr ⟨rfl, nofun⟩
          | updateRequestBlock => exact Or.inl ⟨_, rfl⟩
          | updateRequestSize => exact Or.inl ⟨_, rfl⟩
  | writing rest =>
      simp only [Worker.step]
      split
      · exact Or.inl ⟨_, rfl⟩
      · split
        · exact Or.inr ⟨rfl, nofun⟩
        · exact Or.inl ⟨_, rfl⟩
  | readingRaw n got =>
      simp only [Worker.step]
      split
      · exact Or.inl ⟨_, rfl⟩
      · split
        · exact Or.inr ⟨rfl, nofun⟩
        · exact Or.inl ⟨_, rfl⟩
  | readingHeader got =>
      simp only [Worker.step]
      split
      · split
        · split
          · exact Or.inr ⟨rfl, nofun⟩
          · exact Or.inl ⟨_, rfl⟩
        · exact Or.inl ⟨_, rfl⟩
        · exact Or.inl ⟨_, rfl⟩
        · exact Or.inl ⟨_, rfl⟩
      · split
        · exact Or.inr ⟨rfl, nofun⟩
        · exact Or.inl ⟨_, rfl⟩
  | readingPayload fh got =>
      simp only [Worker.step]
      split
      · exact Or.inl ⟨_, rfl⟩
      · split
        · exact Or.inr ⟨rfl, nofun⟩
        · exact Or.inl ⟨_, rfl⟩

/-- A thread without anything left to do is between calls. -/
theorem solo_idle [Platform] (n : Nat) (w : Worker) (c : Client)
    (h : w.todo = [] → w.phase = .idle) :
    (solo n (w, c)).1.todo = [] → (solo n (w, c)).1.phase = .idle := by
  induction n generalizing w c with
  | zero => exact h
  | succ n ih =>
      refine ih (w.step c).1 (w.step c).2 ?_
      intro ht
      rcases step_shape w c with ⟨o, ho⟩ | ⟨h1, h2⟩
      · rw [ho] at ht ⊢
        obtain ⟨todo, ph, res⟩ := w
        cases todo with
        | nil => exact h rfl
        | cons op ops => rfl
      · rw [h1] at ht
        exact h2 ht (h ht)

/-- A thread alone that has nothing left to do has made all its calls. -/
theorem solo_finished [Platform] (n : Nat) (ops : List Op) (c : Client)
    (h : (solo n (⟨ops, .idle, []⟩, c)).1.todo = []) :
    (solo n (⟨ops, .idle, []⟩, c)).1.results = (runCalls c ops).1 ∧
      (solo n (⟨ops, .idle, []⟩, c)).2 = (runCalls c ops).2 := by
  obtain ⟨k, hk⟩ := solo_calls ops [] c
  have hp := solo_idle n ⟨ops, .idle, []⟩ c (fun _ => rfl) h
  have := hk (n + k) (by omega)
  rw [solo_add] at this
  generalize solo n (⟨ops, .idle, []⟩, c) = x at *
  obtain ⟨⟨todo, ph, res⟩, d⟩ := x
  simp only at h hp
  subst h hp
  rw [solo_done, List.nil_append] at this
  simp only [Prod.mk.injEq, Worker.mk.injEq, true_and] at this
  exact this

end Mh2c
