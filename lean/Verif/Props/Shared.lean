import Verif.Proofs.Shared
import Verif.Spec.Shared
import Verif.Spec.FrameLayout

/-! C118: one client shared by several threads. -/

namespace Mh2c

open Rfc

private theorem run_replicate [Platform] (n : Nat) (s : Shared) :
    (s.run (List.replicate n 0)).workers 0 = (solo n (s.workers 0, s.client)).1 ∧
      (s.run (List.replicate n 0)).client = (solo n (s.workers 0, s.client)).2 := by
  induction n generalizing s with
  | zero => exact ⟨rfl, rfl⟩
  | succ n ih => exact ih (s.step 0)

/-- C118, what the steps are: a thread that has the client for itself makes its calls as they were
described before, one after the other, and comes to an end. -/
theorem C118_alone [Platform] (c : Client) (ops : Nat → List Op) :
    ∃ n, ∀ m, n ≤ m →
      ((Shared.start c ops).run (List.replicate m 0)).workers 0 = ⟨[], .idle, (runCalls c (ops 0)).1⟩ ∧
      ((Shared.start c ops).run (List.replicate m 0)).client = (runCalls c (ops 0)).2 := by
  obtain ⟨n, hn⟩ := solo_calls (ops 0) [] c
  refine ⟨n, fun m hm => ?_⟩
  obtain ⟨h1, h2⟩ := run_replicate m (Shared.start c ops)
  rw [h1, h2]
  have := hn m hm
  rw [List.nil_append] at this
  exact ⟨congrArg (·.1) this, congrArg (·.2) this⟩

/-- C118. One thread sends (and looks after the request table) while another one receives: in
whatever order their steps come, each that has finished has the results it would have had alone, and
what is on the wire, what is left to receive and the tables are the same as well. -/
theorem C118_send_receive [Platform] (c : Client) (sends receives : List Op)
    (hs : ∀ op ∈ sends, op.receives = false) (hr : ∀ op ∈ receives, op.receives = true)
    (schedule : List Nat) (s : Shared)
    (h : s = (Shared.start c fun i => if i = 0 then sends else if i = 1 then receives else []).run schedule) :
    ((s.workers 0).todo = [] → (s.workers 0).results = (runCalls c sends).1 ∧
      SameOutput s.client (runCalls c sends).2) ∧
    ((s.workers 1).todo = [] → (s.workers 1).results = (runCalls c receives).1 ∧
      SameInput s.client (runCalls c receives).2) := by
  have start0 : (Shared.start c fun i => if i = 0 then sends else if i = 1 then receives else []).workers 0 =
    ⟨sends, .idle, []⟩ := rfl
  have start1 : (Shared.start c fun i => if i = 0 then sends else if i = 1 then receives else []).workers 1 =
    ⟨receives, .idle, []⟩ := rfl
  obtain ⟨h1, h2, h3, h4⟩ := run_two schedule
    (Shared.start c fun i => if i = 0 then sends else if i = 1 then receives else []) c c
    ⟨hs, Or.inl rfl⟩ ⟨hr, nofun⟩ (fun i hi => ⟨by
      show (if i = 0 then sends else if i = 1 then receives else []) = []
      rw [if_neg (by omega), if_neg (by omega)], rfl⟩) ⟨rfl, rfl, rfl⟩ ⟨rfl, rfl, rfl⟩
  rw [← h] at h1 h2 h3 h4
  rw [start0] at h1 h2
  rw [start1] at h3 h4
  refine ⟨fun hf => ?_, fun hf => ?_⟩
  · rw [h1] at hf ⊢
    obtain ⟨r1, r2⟩ := solo_finished _ _ _ hf
    rw [r2] at h2
    exact ⟨r1, h2⟩
  · rw [h3] at hf ⊢
    obtain ⟨r1, r2⟩ := solo_finished _ _ _ hf
    rw [r2] at h4
    exact ⟨r1, h4⟩

/-- C118. Neither waits for the other: each finishes once it has made enough steps, however many the
other one makes. -/
theorem C118_progress [Platform] (c : Client) (sends receives : List Op)
    (hs : ∀ op ∈ sends, op.receives = false) (hr : ∀ op ∈ receives, op.receives = true) :
    ∃ n, ∀ (schedule : List Nat) (s : Shared),
      s = (Shared.start c fun i => if i = 0 then sends else if i = 1 then receives else []).run schedule →
      (n ≤ schedule.count 0 → (s.workers 0).todo = []) ∧
      (n ≤ schedule.count 1 → (s.workers 1).todo = []) := by
  obtain ⟨n0, k0⟩ := solo_calls sends [] c
  obtain ⟨n1, k1⟩ := solo_calls receives [] c
  refine ⟨max n0 n1, fun schedule s h => ?_⟩
  have start0 : (Shared.start c fun i => if i = 0 then sends else if i = 1 then receives else []).workers 0 =
    ⟨sends, .idle, []⟩ := rfl
  have start1 : (Shared.start c fun i => if i = 0 then sends else if i = 1 then receives else []).workers 1 =
    ⟨receives, .idle, []⟩ := rfl
  obtain ⟨h1, -, h3, -⟩ := run_two schedule
    (Shared.start c fun i => if i = 0 then sends else if i = 1 then receives else []) c c
    ⟨hs, Or.inl rfl⟩ ⟨hr, nofun⟩ (fun i hi => ⟨by
      show (if i = 0 then sends else if i = 1 then receives else []) = []
      rw [if_neg (by omega), if_neg (by omega)], rfl⟩) ⟨rfl, rfl, rfl⟩ ⟨rfl, rfl, rfl⟩
  rw [← h, start0] at h1
  rw [← h, start1] at h3
  refine ⟨fun hn => ?_, fun hn => ?_⟩
  · rw [h1, k0 _ (by omega)]
  · rw [h3, k1 _ (by omega)]


/-- A thread sends three octets, in two pieces, while another one receives a PING, header and data
apart. -/
example [P : Platform] :
    let s := (Shared.start (.new ⟨[0, 0, 8, 6, 0, 0, 0, 0, 0, 1, 2, 3, 4, 5, 6, 7, 8], [], [9, 8], [2, 2]⟩)
      fun i => if i = 0 then [.sendRaw [1, 2, 3]] else if i = 1 then [.receiveFrame] else []).run
        [0, 1, 0, 1, 1, 0, 1, 0, 1]
    (s.workers 0).todo = [] ∧ (s.workers 1).todo = [] ∧ s.client.conn = ⟨[], [1, 2, 3], [], []⟩ := by
  rcases P with ⟨a, b⟩
  cases a <;> cases b <;> exact ⟨rfl, rfl, by decide +kernel⟩

/-! ### Several threads that send -/

private theorem returnedSends_append (res : List (Op × Outcome)) (op : Op) (o : Outcome) :
    returnedSends (res ++ [(op, o)]) =
      returnedSends res ++ if op.writes && o.returned then [op] else [] := by
  unfold returnedSends
  rw [List.filter_append, List.map_append]
  congr 1
  simp only [List.filter_cons, List.filter_nil]
  split <;> rfl

/-- What a thread has put on the wire, in terms of its calls. -/
private def OnWire [Platform] (mine : List Op) (parts : List Bytes) (w : Worker) : Prop :=
  (∀ op ∈ w.todo, op ∈ mine) ∧
  (((∀ rest, w.phase ≠ .writing rest) ∧ List.Forall₂ Asked (returnedSends w.results) parts) ∨
    ∃ op ops data, w.todo = op :: ops ∧ op.writes = true ∧ Asked op data ∧
      ((w.phase = .writing data ∧ List.Forall₂ Asked (returnedSends w.results) parts) ∨
       (w.phase = .writing [] ∧ List.Forall₂ Asked (returnedSends w.results ++ [op]) parts)))

private theorem finish_onWire [Platform] {mine : List Op} {parts : List Bytes} {w : Worker} {o : Outcome}
    (ht : ∀ op ∈ w.todo, op ∈ mine) (hp : List.Forall₂ Asked (returnedSends w.results) parts)
    (ho : ∀ op ops, w.todo = op :: ops → (op.writes && o.returned) = false)
    (hi : w.todo = [] → ∀ rest, w.phase ≠ .writing rest) : OnWire mine parts (w.finish o) := by
  obtain ⟨todo, ph, res⟩ := w
  cases todo with
  | nil => exact ⟨ht, Or.inl ⟨hi rfl, hp⟩⟩
  | cons op ops =>
      refine ⟨fun x hx => ht x (List.mem_cons_of_mem _ hx), Or.inl ⟨nofun, ?_⟩⟩
      show List.Forall₂ Asked (returnedSends (res ++ [(op, o)])) parts
      rw [returnedSends_append, ho op ops rfl]
      simpa using hp

private theorem bioRead_out (c : Conn) (n : Nat) :
    (c.bioRead n).2.sent = c.sent ∧ (c.bioRead n).2.writes = c.writes := by
  obtain ⟨inc, sent, rd, ws⟩ := c
  unfold Conn.bioRead
  cases rd with
  | nil => exact ⟨rfl, rfl⟩
  | cons r rd => simp only; split <;> exact ⟨rfl, rfl⟩

private theorem processFrame_conn [Platform] (c : Client) (fh : FrameHeader) (raw : Bytes) :
    (c.processFrame fh raw).2.conn = c.conn := by
  unfold Client.processFrame
  split
  · split <;> rfl
  all_goals rfl

/-- One step of a thread: it adds a whole buffer to the wire or nothing. -/
private theorem step_onWire [Platform] {mine : List Op} {parts : List Bytes} {w : Worker} {c : Client}
    (h : OnWire mine parts w)
    (hw : ∀ k ∈ c.conn.writes, k = 0 ∨ ∀ op ∈ mine, ∀ data, Asked op data → data.length ≤ k)
    (hl : ∀ op ∈ mine, ∀ data, Asked op data → data.length < 2 ^ 31) :
    ∃ new, (w.step c).2.conn.sent = c.conn.sent ++ new.flatten ∧ OnWire mine (parts ++ new) (w.step c).1 ∧
      ∀ k ∈ (w.step c).2.conn.writes, k ∈ c.conn.writes := by
  obtain ⟨todo, ph, res⟩ := w
  obtain ⟨ht, h⟩ := h
  have plain : ∀ (x : Worker × Client), x.2.conn.sent = c.conn.sent → x.2.conn.writes = c.conn.writes →
      OnWire mine parts x.1 → ∃ new, x.2.conn.sent = c.conn.sent ++ new.flatten ∧
      OnWire mine (parts ++ new) x.1 ∧ ∀ k ∈ x.2.conn.writes, k ∈ c.conn.writes := by
    intro x h1 h2 h3
    exact ⟨[], by simpa using h1, by simpa using h3, by rw [h2]; exact fun _ h => h⟩
  rcases h with ⟨hp, hf⟩ | ⟨op, ops, data, rfl, hwr, ha, h⟩
  · cases ph with
    | writing rest => exact absurd rfl (hp rest)
    | idle =>
        cases todo with
        | nil => exact plain _ rfl rfl ⟨ht, Or.inl ⟨hp, hf⟩⟩
        | cons op ops =>
            cases op with
            | sendPreface =>
                exact plain _ rfl rfl ⟨ht, Or.inr ⟨_, _, _, rfl, rfl, .preface, Or.inl ⟨rfl, hf⟩⟩⟩
            | sendRaw data =>
                exact plain _ rfl rfl ⟨ht, Or.inr ⟨_, _, _, rfl, rfl, .raw data, Or.inl ⟨rfl, hf⟩⟩⟩
            | sendFrame f =>
                simp only [Worker.step]
                cases hs : f.serialize with
                | ok raw =>
                    exact plain _ rfl rfl ⟨ht, Or.inr ⟨_, _, _, rfl, rfl, .frame f raw hs, Or.inl ⟨rfl, hf⟩⟩⟩
                | throw e => exact plain _ rfl rfl (finish_onWire ht hf (fun _ _ _ => by simp [Outcome.returned]) nofun)
                | ub e => exact plain _ rfl rfl (finish_onWire ht hf (fun _ _ _ => by simp [Outcome.returned]) nofun)
                | diverge => exact plain _ rfl rfl (finish_onWire ht hf (fun _ _ _ => by simp [Outcome.returned]) nofun)
            | receiveRaw n => exact plain _ rfl rfl ⟨ht, Or.inl ⟨nofun, hf⟩⟩
            | receiveFrame => exact plain _ rfl rfl ⟨ht, Or.inl ⟨nofun, hf⟩⟩
            | updateRequestBlock b =>
                exact plain _ rfl rfl (finish_onWire ht hf (fun op ops h => by
                  obtain ⟨rfl, -⟩ := List.cons.inj h; rfl) nofun)
            | updateRequestSize n =>
                have e : (c.updateRequestTableSize n).2.conn = c.conn := by
                  unfold Client.updateRequestTableSize
                  split <;> rfl
                exact plain _ (congrArg Conn.sent e) (congrArg Conn.writes e)
                  (finish_onWire ht hf (fun op ops h => by
                  obtain ⟨rfl, -⟩ := List.cons.inj h; rfl) nofun)
    | readingRaw n got =>
        have hb := bioRead_out c.conn (n - got.length)
        simp only [Worker.step]
        split
        · exact plain _ rfl rfl (finish_onWire ht hf (fun _ _ _ => by simp [Outcome.returned]) (fun _ => nofun))
        · split
          · rename_i e
            rw [e] at hb
            exact plain _ hb.1 hb.2 ⟨ht, Or.inl ⟨nofun, hf⟩⟩
          · rename_i e
            rw [e] at hb
            exact plain _ hb.1 hb.2 (finish_onWire ht hf (fun _ _ _ => by simp [Outcome.returned]) (fun _ => nofun))
    | readingHeader got =>
        have hb := bioRead_out c.conn (9 - got.length)
        simp only [Worker.step]
        split
        · split
          · rename_i fh _
            split
            · exact plain _ rfl rfl ⟨ht, Or.inl ⟨nofun, hf⟩⟩
            · have e := processFrame_conn c fh []
              exact plain _ (congrArg Conn.sent e) (congrArg Conn.writes e)
                (finish_onWire ht hf (fun _ _ _ => by simp [Outcome.returned]) (fun _ => nofun))
          all_goals exact plain _ rfl rfl (finish_onWire ht hf (fun _ _ _ => by simp [Outcome.returned]) (fun _ => nofun))
        · split
          · rename_i e
            rw [e] at hb
            exact plain _ hb.1 hb.2 ⟨ht, Or.inl ⟨nofun, hf⟩⟩
          · rename_i e
            rw [e] at hb
            exact plain _ hb.1 hb.2 (finish_onWire ht hf (fun _ _ _ => by simp [Outcome.returned]) (fun _ => nofun))
    | readingPayload fh got =>
        have hb := bioRead_out c.conn (fh.length.toNat - got.length)
        simp only [Worker.step]
        split
        · have e := processFrame_conn c fh got
          exact plain _ (congrArg Conn.sent e) (congrArg Conn.writes e)
            (finish_onWire ht hf (fun _ _ _ => by simp [Outcome.returned]) (fun _ => nofun))
        · split
          · rename_i e
            rw [e] at hb
            exact plain _ hb.1 hb.2 ⟨ht, Or.inl ⟨nofun, hf⟩⟩
          · rename_i e
            rw [e] at hb
            exact plain _ hb.1 hb.2 (finish_onWire ht hf (fun _ _ _ => by simp [Outcome.returned]) (fun _ => nofun))
  · have hop := ht op (List.mem_cons_self ..)
    have fin : ∀ parts', List.Forall₂ Asked (returnedSends res ++ [op]) parts' →
        OnWire mine parts' ⟨ops, .idle, res ++ [(op, .done (.ok ()))]⟩ := by
      intro parts' h
      refine ⟨fun x hx => ht x (List.mem_cons_of_mem _ hx), Or.inl ⟨nofun, ?_⟩⟩
      show List.Forall₂ Asked (returnedSends (res ++ [(op, .done (.ok ()))])) parts'
      rw [returnedSends_append, hwr]
      exact h
    rcases h with ⟨rfl, hf⟩ | ⟨rfl, hf⟩
    · by_cases h0 : data.length = 0
      · refine ⟨[data], ?_, ?_, ?_⟩
        · simp only [Worker.step, if_pos h0]
          rw [List.length_eq_zero_iff.1 h0]
          simp
        · simp only [Worker.step, if_pos h0]
          exact fin _ (List.rel_append hf (.cons ha .nil))
        · simp only [Worker.step, if_pos h0]
          exact fun _ h => h
      · obtain ⟨⟨inc, sent, rd, ws⟩, rq, rs⟩ := c
        simp only [Worker.step, if_neg h0, Conn.bioWrite]
        cases ws with
        | nil =>
            exact plain _ rfl rfl (finish_onWire ht hf (fun _ _ _ => by simp [Outcome.returned]) nofun)
        | cons k ws =>
            have hint : toIntLength data.length = data.length := by
              have := hl op hop data ha
              unfold toIntLength
              rw [Nat.mod_eq_of_lt (by omega), if_pos this]
            rcases hw k (List.mem_cons_self ..) with rfl | hk
            · simp only [Nat.zero_min, if_true]
              refine ⟨[], by simp, ?_, fun _ h => List.mem_cons_of_mem _ h⟩
              rw [List.append_nil]
              exact finish_onWire ht hf (fun _ _ _ => by simp [Outcome.returned]) nofun
            · have hk := hk op hop data ha
              simp only [hint, Nat.min_eq_right hk, if_neg h0]
              refine ⟨[data], ?_, ?_, fun _ h => List.mem_cons_of_mem _ h⟩
              · simp
              · refine ⟨ht, Or.inr ⟨_, _, data, rfl, hwr, ha, Or.inr ⟨?_, ?_⟩⟩⟩
                · simp
                · exact List.rel_append hf (.cons ha .nil)
    · exact plain _ rfl rfl (fin _ hf)

private theorem partsOf_append (i : Nat) (order : List (Nat × Bytes)) (j : Nat) (new : List Bytes) :
    partsOf i (order ++ new.map fun b => (j, b)) = partsOf i order ++ if i = j then new else [] := by
  unfold partsOf
  rw [List.filter_append, List.map_append]
  congr 1
  split
  · subst_vars
    induction new with
    | nil => rfl
    | cons x xs ih => simpa using ih
  · rename_i h
    induction new with
    | nil => rfl
    | cons x xs ih =>
        rw [List.map_cons, List.filter_cons_of_neg (by simpa using fun e => h e.symm)]
        exact ih

/-- C118, the part that holds for several threads that send (or do anything else): over a transport
that takes each buffer whole or fails, the wire holds whole buffers, in an order in which those of
each thread are those of its calls that returned, in the order of the calls. Missing: transports that
take a part of a buffer, see `C118_mixed_violated`. -/
theorem C118_whole_partial [Platform] (c : Client) (ops : Nat → List Op) (schedule : List Nat)
    (s : Shared) (h : s = (Shared.start c ops).run schedule)
    (hw : ∀ k ∈ c.conn.writes, k = 0 ∨ ∀ i, ∀ op ∈ ops i, ∀ data, Asked op data → data.length ≤ k)
    (hl : ∀ i, ∀ op ∈ ops i, ∀ data, Asked op data → data.length < 2 ^ 31) :
    ∃ order : List (Nat × Bytes),
      s.client.conn.sent = c.conn.sent ++ (order.map (·.2)).flatten ∧
      ∀ i, (s.workers i).phase = .idle →
        List.Forall₂ Asked (returnedSends (s.workers i).results) (partsOf i order) := by
  have key : ∀ (schedule : List Nat) (s : Shared) (order : List (Nat × Bytes)),
      s.client.conn.sent = c.conn.sent ++ (order.map (·.2)).flatten →
      (∀ k ∈ s.client.conn.writes, k ∈ c.conn.writes) →
      (∀ i, OnWire (ops i) (partsOf i order) (s.workers i)) →
      ∃ order : List (Nat × Bytes),
        (s.run schedule).client.conn.sent = c.conn.sent ++ (order.map (·.2)).flatten ∧
        ∀ i, OnWire (ops i) (partsOf i order) ((s.run schedule).workers i) := by
    intro schedule
    induction schedule with
    | nil => exact fun s order h1 _ h3 => ⟨order, h1, h3⟩
    | cons i schedule ih =>
        intro s order h1 h2 h3
        obtain ⟨new, n1, n2, n3⟩ := step_onWire (c := s.client) (h3 i)
          (fun k hk => (hw k (h2 k hk)).imp id (fun h => h i)) (hl i)
        refine ih (s.step i) (order ++ new.map fun b => (i, b)) ?_ (fun k hk => h2 k (n3 k hk)) ?_
        · show ((s.workers i).step s.client).2.conn.sent = _
          rw [n1, h1]
          simp [Function.comp_def]
        · intro j
          rw [partsOf_append]
          by_cases hj : j = i
          · subst hj
            rw [if_pos rfl, show (s.step j).workers j = ((s.workers j).step s.client).1 from if_pos rfl]
            exact n2
          · rw [if_neg hj, List.append_nil, show (s.step i).workers j = s.workers j from if_neg hj]
            exact h3 j
  obtain ⟨order, h1, h2⟩ := key schedule (Shared.start c ops) [] (by simp [Shared.start])
    (fun _ h => h) (fun i => ⟨fun _ h => h, Or.inl ⟨nofun, .nil⟩⟩)
  rw [← h] at h1 h2
  refine ⟨order, h1, fun i hi => ?_⟩
  rcases (h2 i).2 with ⟨-, h⟩ | ⟨_, _, _, -, -, -, ⟨h, -⟩ | ⟨h, -⟩⟩
  · exact h
  · rw [hi] at h; cases h
  · rw [hi] at h; cases h

/-- Two threads with two buffers each, over a transport that fails once: the hypotheses hold, and this
is one of the orders. -/
example [P : Platform] :
    let c := Client.new ⟨[], [], [], [7, 0, 7, 7]⟩
    let ops : Nat → List Op := fun i =>
      if i = 0 then [.sendRaw [1, 2], .sendRaw [3]] else if i = 1 then [.sendRaw [4], .sendRaw [5, 6]] else []
    (∀ k ∈ c.conn.writes, k = 0 ∨ ∀ i, ∀ op ∈ ops i, ∀ data, Asked op data → data.length ≤ k) ∧
    (∀ i, ∀ op ∈ ops i, ∀ data, Asked op data → data.length < 2 ^ 31) ∧
    (let s := (Shared.start c ops).run [0, 1, 0, 1, 0, 1, 1, 0, 0, 1, 0]
     s.client.conn.sent = [1, 2, 5, 6, 3] ∧ (s.workers 0).todo = [] ∧ (s.workers 1).todo = []) := by
  have len : ∀ i : Nat, ∀ op ∈ (if i = 0 then [.sendRaw [1, 2], .sendRaw [3]] else
      if i = 1 then [.sendRaw [4], .sendRaw [5, 6]] else [] : List Op), ∀ data, Asked op data →
      data.length ≤ 2 := by
    intro i op hop data ha
    split at hop
    · simp only [List.mem_cons, List.not_mem_nil, or_false] at hop
      rcases hop with rfl | rfl <;> cases ha <;> decide
    · split at hop
      · simp only [List.mem_cons, List.not_mem_nil, or_false] at hop
        rcases hop with rfl | rfl <;> cases ha <;> decide
      · cases hop
  refine ⟨fun k hk => ?_, fun i op hop data ha => lt_of_le_of_lt (len i op hop data ha) (by decide), ?_⟩
  · have : k = 7 ∨ k = 0 := by
      simp only [Client.new, List.mem_cons, List.not_mem_nil, or_false] at hk
      omega
    rcases this with rfl | rfl
    · exact Or.inr fun i op hop data ha => le_trans (len i op hop data ha) (by decide)
    · exact Or.inl rfl
  · rcases P with ⟨a, b⟩
    cases a <;> cases b <;> exact ⟨by decide +kernel, rfl, rfl⟩

/-! ### Mixed octets -/

private theorem intLength {n : Nat} (h : n < 2 ^ 31) : toIntLength n = n := by
  unfold toIntLength
  rw [Nat.mod_eq_of_lt (by omega), if_pos h]

/-- The state of the first two threads and of the client. -/
private def At (s : Shared) (w0 w1 : Worker) (c : Client) : Prop :=
  s.workers 0 = w0 ∧ s.workers 1 = w1 ∧ s.client = c

private theorem At.step0 [Platform] {s : Shared} {w0 w1 w0' : Worker} {c c' : Client}
    (h : At s w0 w1 c) (hs : w0.step c = (w0', c')) : At (s.step 0) w0' w1 c' := by
  obtain ⟨rfl, rfl, rfl⟩ := h
  exact ⟨congrArg (·.1) hs, rfl, congrArg (·.2) hs⟩

private theorem At.step1 [Platform] {s : Shared} {w0 w1 w1' : Worker} {c c' : Client}
    (h : At s w0 w1 c) (hs : w1.step c = (w1', c')) : At (s.step 1) w0 w1' c' := by
  obtain ⟨rfl, rfl, rfl⟩ := h
  exact ⟨rfl, congrArg (·.1) hs, congrArg (·.2) hs⟩

private theorem write_step [Platform] (todo : List Op) (res : List (Op × Outcome)) (d : Bytes)
    (inc sent : Bytes) (rd : List Nat) (w m : Nat) (ws : List Nat) (rq rs : DynamicTable)
    (hm : min w d.length = m) (h0 : 0 < m) (hd : d.length < 2 ^ 31) :
    Worker.step ⟨todo, .writing d, res⟩ ⟨⟨inc, sent, rd, w :: ws⟩, rq, rs⟩ =
      (⟨todo, .writing (d.drop m), res⟩, ⟨⟨inc, sent ++ d.take m, rd, ws⟩, rq, rs⟩) := by
  have hm0 : ¬ m = 0 := by omega
  have hd0 : ¬ d.length = 0 := by omega
  simp only [Worker.step, Conn.bioWrite, intLength hd, hm, if_neg hm0, if_neg hd0]

private theorem begin_step [Platform] {f : Frame} {a : Bytes} (hf : f.serialize = .ok a) (ops : List Op)
    (res : List (Op × Outcome)) (c : Client) :
    Worker.step ⟨.sendFrame f :: ops, .idle, res⟩ c = (⟨.sendFrame f :: ops, .writing a, res⟩, c) := by
  simp only [Worker.step, hf]

/-- C118 is false of the code for two threads that send: as soon as the transport takes only a part of
a frame, all of the other thread's frame can come between, and both calls return. -/
theorem C118_mixed_violated [Platform] (f g : Frame) (a b : Bytes) (hf : f.serialize = .ok a)
    (hg : g.serialize = .ok b) (k ka kb : Nat) (ws : List Nat) (c : Client)
    (hc : c.conn.writes = k :: kb :: ka :: ws) (hk : 0 < k) (hka : k < a.length) (ha : a.length ≤ ka)
    (hb0 : b ≠ []) (hb : b.length ≤ kb) (hal : a.length < 2 ^ 31) (hbl : b.length < 2 ^ 31)
    (ops : Nat → List Op) (h0 : ops 0 = [.sendFrame f]) (h1 : ops 1 = [.sendFrame g]) :
    ∃ schedule,
      (((Shared.start c ops).run schedule).workers 0).results = [(.sendFrame f, .done (.ok ()))] ∧
      (((Shared.start c ops).run schedule).workers 1).results = [(.sendFrame g, .done (.ok ()))] ∧
      ((Shared.start c ops).run schedule).client.conn.sent =
        c.conn.sent ++ (a.take k ++ b ++ a.drop k) := by
  obtain ⟨⟨inc, sent, rd, ws'⟩, rq, rs⟩ := c
  obtain rfl : ws' = k :: kb :: ka :: ws := hc
  have hbl0 : 0 < b.length := List.length_pos_iff.2 hb0
  refine ⟨[0, 0, 1, 1, 1, 0, 0], ?_⟩
  have s0 : At (Shared.start ⟨⟨inc, sent, rd, k :: kb :: ka :: ws⟩, rq, rs⟩ ops)
      ⟨[.sendFrame f], .idle, []⟩ ⟨[.sendFrame g], .idle, []⟩
      ⟨⟨inc, sent, rd, k :: kb :: ka :: ws⟩, rq, rs⟩ :=
    ⟨by rw [← h0]; rfl, by rw [← h1]; rfl, rfl⟩
  have s1 := s0.step0 (begin_step hf _ _ _)
  have s2 := s1.step0 (write_step _ _ a _ _ _ _ k _ _ _ (Nat.min_eq_left hka.le) hk hal)
  have s3 := s2.step1 (begin_step hg _ _ _)
  have s4 := s3.step1 (write_step _ _ b _ _ _ _ b.length _ _ _ (Nat.min_eq_right hb) hbl0 hbl)
  rw [List.drop_length, List.take_length] at s4
  have s5 := s4.step1 (w1' := ⟨[], .idle, [(.sendFrame g, .done (.ok ()))]⟩) rfl
  have s6 := s5.step0 (write_step _ _ (a.drop k) _ _ _ _ (a.drop k).length _ _ _
    (Nat.min_eq_right (by rw [List.length_drop]; omega)) (by rw [List.length_drop]; omega)
    (by rw [List.length_drop]; omega))
  rw [List.drop_length, List.take_length] at s6
  have s7 := s6.step0 (w0' := ⟨[], .idle, [(.sendFrame f, .done (.ok ()))]⟩) rfl
  obtain ⟨e0, e1, e2⟩ := s7
  refine ⟨congrArg Worker.results e0, congrArg Worker.results e1, ?_⟩
  refine (congrArg (fun x : Client => x.conn.sent) e2).trans ?_
  simp

/-- C118, what that means to the peer: two threads send a PING each, with data `da` and `db`. If the
transport takes the first nine octets of the one, the peer reads a PING with data that neither has
sent, and then octets that are no frame of either. -/
theorem C118_misread_violated [P : Platform] (da db : Bytes) (hda : da.length = 8) (hdb : db.length = 8)
    (c : Client) (ws : List Nat) (hc : c.conn.writes = 9 :: 17 :: 17 :: ws) (ops : Nat → List Op)
    (h0 : ops 0 = [.sendFrame (.ping ⟨⟨8, 6, 0, 0, 0⟩, da⟩)])
    (h1 : ops 1 = [.sendFrame (.ping ⟨⟨8, 6, 0, 0, 0⟩, db⟩)]) :
    ∃ schedule,
      (((Shared.start c ops).run schedule).workers 0).results =
        [(.sendFrame (.ping ⟨⟨8, 6, 0, 0, 0⟩, da⟩), .done (.ok ()))] ∧
      (((Shared.start c ops).run schedule).workers 1).results =
        [(.sendFrame (.ping ⟨⟨8, 6, 0, 0, 0⟩, db⟩), .done (.ok ()))] ∧
      ((Shared.start c ops).run schedule).client.conn.sent =
        c.conn.sent ++ frameOctets 6 0 0 [0, 0, 8, 6, 0, 0, 0, 0] ++ (0 :: db ++ da) := by
  have ser : ∀ d : Bytes, d.length = 8 →
      (Frame.ping ⟨⟨8, 6, 0, 0, 0⟩, d⟩).serialize = .ok (frameOctets 6 0 0 d) := by
    intro d hd
    have hh : (⟨8, 6, 0, 0, 0⟩ : FrameHeader).serialize = be 3 8 ++ [6, 0] ++ be 4 0 := by
      rcases P with ⟨x, y⟩
      cases x <;> cases y <;> decide +kernel
    unfold frameOctets
    rw [hd, ← hh]
    rfl
  have len : ∀ d : Bytes, d.length = 8 → (frameOctets 6 0 0 d).length = 17 := by
    intro d hd
    unfold frameOctets
    rw [hd]
    show ([0, 0, 8, 6, 0, 0, 0, 0, 0] ++ d).length = 17
    rw [List.length_append, hd]
    rfl
  have shape : ∀ d : Bytes, d.length = 8 → frameOctets 6 0 0 d = [0, 0, 8, 6, 0, 0, 0, 0, 0] ++ d := by
    intro d hd
    unfold frameOctets
    rw [hd]
    rfl
  obtain ⟨schedule, r0, r1, r2⟩ := C118_mixed_violated _ _ _ _ (ser da hda) (ser db hdb) 9 17 17 ws c hc
    (by decide) (by rw [len da hda]; decide) (by rw [len da hda]) (by
      intro h; have := len db hdb; rw [h] at this; cases this) (by rw [len db hdb])
    (by rw [len da hda]; decide) (by rw [len db hdb]; decide) ops h0 h1
  refine ⟨schedule, r0, r1, ?_⟩
  rw [r2, shape da hda, shape db hdb, shape _ rfl]
  simp

private theorem read_header_step [Platform] (ops : List Op) (res : List (Op × Outcome))
    (inc sent : Bytes) (rd ws : List Nat) (rq rs : DynamicTable) (h : 9 ≤ inc.length) :
    Worker.step ⟨ops, .readingHeader [], res⟩ ⟨⟨inc, sent, 9 :: rd, ws⟩, rq, rs⟩ =
      (⟨ops, .readingHeader (inc.take 9), res⟩, ⟨⟨inc.drop 9, sent, rd, ws⟩, rq, rs⟩) := by
  have hm : min 9 (min (toIntLength (9 - ([] : Bytes).length)) inc.length) = 9 := by
    rw [intLength (by decide)]
    simp only [List.length_nil]
    omega
  simp only [Worker.step, Conn.bioRead, hm]
  rfl

/-- C118 is false of the code for two threads that receive, too: the server sends two PINGs; one
thread reads the header of the first and then, as its data, octets of the header of the second: it is
given a PING that the server has not sent (unless these happen to be the data). -/
theorem C118_receivers_violated [P : Platform] (da db : Bytes) (hda : da.length = 8)
    (hdb : db.length = 8) (c : Client) (rs : List Nat)
    (hi : c.conn.incoming = frameOctets 6 0 0 da ++ frameOctets 6 0 0 db)
    (hc : c.conn.reads = 9 :: 9 :: 8 :: rs) (ops : Nat → List Op) (h0 : ops 0 = [.receiveFrame])
    (h1 : ops 1 = [.receiveFrame]) :
    ∃ schedule,
      (((Shared.start c ops).run schedule).workers 0).results =
        [(.receiveFrame, .frame (.ok (.ping ⟨⟨8, 6, 0, 0, 0⟩, [0, 8, 6, 0, 0, 0, 0, 0]⟩)))] := by
  obtain ⟨⟨inc, sent, rd, ws⟩, rq, rt⟩ := c
  obtain rfl : rd = 9 :: 9 :: 8 :: rs := hc
  have shape : ∀ d : Bytes, d.length = 8 → frameOctets 6 0 0 d = [0, 0, 8, 6, 0, 0, 0, 0, 0] ++ d := by
    intro d hd
    unfold frameOctets
    rw [hd]
    rfl
  rw [shape da hda, shape db hdb] at hi
  obtain ⟨d1, d2, d3, d4, d5, d6, d7, d8, rfl⟩ :
      ∃ d1 d2 d3 d4 d5 d6 d7 d8, da = [d1, d2, d3, d4, d5, d6, d7, d8] := by
    match da, hda with
    | [a, b, c, d, e, f, g, h], _ => exact ⟨_, _, _, _, _, _, _, _, rfl⟩
  obtain rfl : inc = _ := hi
  refine ⟨[0, 0, 1, 1, 0, 0, 0], ?_⟩
  have hh : buildFrameHeader [0, 0, 8, 6, 0, 0, 0, 0, 0] = .ok ⟨8, 6, 0, 0, 0⟩ := by
    rcases P with ⟨x, y⟩
    cases x <;> cases y <;> decide +kernel
  have s0 : At (Shared.start ⟨⟨[0, 0, 8, 6, 0, 0, 0, 0, 0] ++ [d1, d2, d3, d4, d5, d6, d7, d8] ++
      ([0, 0, 8, 6, 0, 0, 0, 0, 0] ++ db), sent, 9 :: 9 :: 8 :: rs, ws⟩, rq, rt⟩ ops)
      ⟨[.receiveFrame], .idle, []⟩ ⟨[.receiveFrame], .idle, []⟩ ⟨⟨[0, 0, 8, 6, 0, 0, 0, 0, 0] ++
      [d1, d2, d3, d4, d5, d6, d7, d8] ++ ([0, 0, 8, 6, 0, 0, 0, 0, 0] ++ db), sent, 9 :: 9 :: 8 :: rs,
      ws⟩, rq, rt⟩ :=
    ⟨by rw [← h0]; rfl, by rw [← h1]; rfl, rfl⟩
  have s1 := s0.step0 (w0' := ⟨[.receiveFrame], .readingHeader [], []⟩) rfl
  have s2 := s1.step0 (read_header_step _ _ _ _ _ _ _ _ (by simp))
  have s3 := s2.step1 (w1' := ⟨[.receiveFrame], .readingHeader [], []⟩) rfl
  have s4 := s3.step1 (read_header_step _ _ _ _ _ _ _ _ (by simp))
  have s5 := s4.step0 (w0' := ⟨[.receiveFrame], .readingPayload ⟨8, 6, 0, 0, 0⟩ [], []⟩) (by
    show Worker.step ⟨_, .readingHeader [0, 0, 8, 6, 0, 0, 0, 0, 0], _⟩ _ = _
    simp only [Worker.step, hh]
    rfl)
  have hb : Conn.bioRead ⟨[0, 8, 6, 0, 0, 0, 0, 0] ++ db, sent, 8 :: rs, ws⟩ 8 =
      (some [0, 8, 6, 0, 0, 0, 0, 0], ⟨db, sent, rs, ws⟩) := by
    have hm : min 8 (min (toIntLength 8) ([0, 8, 6, 0, 0, 0, 0, 0] ++ db).length) = 8 := by
      rw [intLength (by decide), List.length_append]
      simp only [List.length_cons, List.length_nil]
      omega
    simp only [Conn.bioRead, hm]
    rfl
  have s6 := s5.step0 (w0' := ⟨[.receiveFrame], .readingPayload ⟨8, 6, 0, 0, 0⟩
      [0, 8, 6, 0, 0, 0, 0, 0], []⟩) (c' := ⟨⟨db, sent, rs, ws⟩, rq, rt⟩) (by
    show Worker.step ⟨_, .readingPayload ⟨8, 6, 0, 0, 0⟩ [], _⟩
      ⟨⟨[0, 8, 6, 0, 0, 0, 0, 0] ++ db, sent, 8 :: rs, ws⟩, rq, rt⟩ = _
    simp only [Worker.step]
    rw [if_neg (by decide), show (8 : UInt32).toNat - ([] : Bytes).length = 8 from rfl, hb]
    rfl)
  have s7 := s6.step0 (w0' := ⟨[], .idle, [(.receiveFrame, .frame (.ok (.ping ⟨⟨8, 6, 0, 0, 0⟩,
    [0, 8, 6, 0, 0, 0, 0, 0]⟩)))]⟩) (c' := ⟨⟨db, sent, rs, ws⟩, rq, rt⟩) (by rfl)
  exact congrArg Worker.results s7.1

end Mh2c
