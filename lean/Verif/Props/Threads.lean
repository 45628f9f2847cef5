/-
C111: clients in several threads.
-/
import Verif.Spec.Threads
import Verif.Model.Threads
import Verif.Props.Tls

namespace Mh2c

/-- The calls among steps. -/
def stepCalls (steps : List ThreadStep) : List TlsCall :=
  steps.filterMap fun s => match s with | .call c => some c | _ => none

/-- Every connection attempt comes after a `call_once`. -/
def Guarded (steps : List ThreadStep) : Prop :=
  ∀ a b, steps = a ++ .call .doConnect :: b → .once ∈ a ∨ .finish ∈ a

theorem Guarded.tail {s : ThreadStep} {steps : List ThreadStep} (h : Guarded (s :: steps))
    (h1 : s ≠ .once) (h2 : s ≠ .finish) : Guarded steps := by
  intro a b hab
  rcases h (s :: a) b (by rw [hab]; rfl) with h | h
  · rcases List.mem_cons.1 h with h | h
    · exact absurd h.symm h1
    · exact Or.inl h
  · rcases List.mem_cons.1 h with h | h
    · exact absurd h.symm h2
    · exact Or.inr h

theorem Guarded.append {s t : List ThreadStep} (hs : Guarded s) (ht : Guarded t) :
    Guarded (s ++ t) := by
  intro a b hab
  rcases List.append_eq_append_iff.1 hab with ⟨m, h1, h2⟩ | ⟨m, h1, h2⟩
  · rcases ht m b h2 with h | h
    · exact Or.inl (by rw [h1]; exact List.mem_append_right _ h)
    · exact Or.inr (by rw [h1]; exact List.mem_append_right _ h)
  · cases m with
    | nil =>
        rcases ht [] b h2.symm with h | h <;> cases h
    | cons x m =>
        rw [List.cons_append] at h2
        obtain ⟨rfl, rfl⟩ := List.cons.inj h2
        exact hs a m h1

/-- What holds of every reachable state. -/
structure ThreadsInv (p : Threads) (trace : List (Nat × ThreadEvent)) : Prop where
  fresh : p.flag = .fresh → ∀ e ∈ trace, e.2 ≠ .initBegin ∧ e.2 ≠ .initEnd
  running : p.flag = .running → (trace.map (·.2)).count .initBegin = 1 ∧
    (∀ e ∈ trace, e.2 ≠ .initEnd) ∧ ∃ i rest, p.todo i = .finish :: rest
  done : p.flag = .done → (trace.map (·.2)).count .initBegin = 1 ∧
    (trace.map (·.2)).count .initEnd = 1
  one : ∀ i, .finish ∈ p.todo i → p.flag = .running ∧ ∃ rest, p.todo i = .finish :: rest ∧
    .finish ∉ rest ∧ ∀ j, .finish ∈ p.todo j → j = i
  guarded : p.flag ≠ .done → ∀ i, Guarded (p.todo i)

theorem ThreadsStep.todo {p q : Threads} {i : Nat} {e : ThreadEvent} (h : ThreadsStep p i e q) {j : Nat}
    (hj : j ≠ i) : q.todo j = p.todo j := by
  cases h <;> simp [Threads.set, hj]

theorem inv_step {p q : Threads} {trace : List (Nat × ThreadEvent)} {i : Nat} {e : ThreadEvent}
    (hp : ThreadsInv p trace) (hs : ThreadsStep p i e q) : ThreadsInv q (trace ++ [(i, e)]) := by
  have hfin : ∀ rest s, p.todo i = s :: rest → s ≠ .finish → .finish ∉ rest := by
    intro rest s h hs hm
    obtain ⟨-, r, hr, -⟩ := hp.one i (by rw [h]; exact List.mem_cons_of_mem _ hm)
    rw [h] at hr
    exact hs (List.cons.inj hr).1
  have hother := fun {j} => hs.todo (j := j)
  cases hs with
  | call c rest h =>
      have hi : (p.set p.flag i rest).todo i = rest := by simp [Threads.set]
      have hn := hfin rest _ h (by simp)
      refine ⟨?_, ?_, ?_, ?_, ?_⟩
      · intro hf e he
        rcases List.mem_append.1 he with he | he
        · exact hp.fresh hf e he
        · obtain rfl := List.mem_singleton.1 he
          exact ⟨by simp, by simp⟩
      · intro hf
        obtain ⟨h1, h2, j, r, h3⟩ := hp.running hf
        refine ⟨by simpa using h1, ?_, j, r, ?_⟩
        · intro e he
          rcases List.mem_append.1 he with he | he
          · exact h2 e he
          · obtain rfl := List.mem_singleton.1 he
            simp
        · rw [hother (by rintro rfl; rw [h] at h3; simp at h3)]
          exact h3
      · intro hf
        simpa using hp.done hf
      · intro j hj
        have hji : j ≠ i := by rintro rfl; rw [hi] at hj; exact hn hj
        rw [hother hji] at hj ⊢
        obtain ⟨h1, r, h2, h3, h4⟩ := hp.one j hj
        refine ⟨h1, r, h2, h3, fun k hk => ?_⟩
        have hki : k ≠ i := by rintro rfl; rw [hi] at hk; exact hn hk
        rw [hother hki] at hk
        exact h4 k hk
      · intro hf j
        by_cases hji : j = i
        · subst hji
          rw [hi]
          have := hp.guarded hf j
          rw [h] at this
          exact this.tail (by simp) (by simp)
        · rw [hother hji]
          exact hp.guarded hf j
  | first rest h hfl =>
      have hi : (p.set .running i (.finish :: rest)).todo i = .finish :: rest := by
        simp [Threads.set]
      have hn := hfin rest _ h (by simp)
      have hnone : ∀ j, .finish ∉ p.todo j := by
        intro j hj
        have := (hp.one j hj).1
        rw [hfl] at this
        cases this
      refine ⟨?_, ?_, ?_, ?_, ?_⟩
      · intro hf; cases hf
      · intro _
        refine ⟨?_, ?_, i, rest, hi⟩
        · have h0 : ThreadEvent.initBegin ∉ trace.map (·.2) := by
            intro hm
            obtain ⟨e, he, h2⟩ := List.mem_map.1 hm
            exact (hp.fresh hfl e he).1 h2
          simp [List.count_eq_zero.2 h0]
        · intro e he
          rcases List.mem_append.1 he with he | he
          · exact (hp.fresh hfl e he).2
          · obtain rfl := List.mem_singleton.1 he
            simp
      · intro hf; cases hf
      · intro j hj
        have hji : j = i := by
          by_contra hji
          rw [hother hji] at hj
          exact hnone j hj
        subst hji
        refine ⟨rfl, rest, hi, hn, fun k hk => ?_⟩
        by_contra hki
        rw [hother hki] at hk
        exact hnone k hk
      · intro _ j
        by_cases hji : j = i
        · subst hji
          rw [hi]
          intro a b hab
          cases a with
          | nil => simp at hab
          | cons x a =>
              obtain ⟨rfl, -⟩ := List.cons.inj hab
              exact Or.inr List.mem_cons_self
        · rw [hother hji]
          exact hp.guarded (by rw [hfl]; simp) j
  | finish rest h =>
      have hi : (p.set .done i rest).todo i = rest := by simp [Threads.set]
      obtain ⟨hrun, r, hr, hn, huniq⟩ := hp.one i (by rw [h]; exact List.mem_cons_self)
      obtain rfl := (List.cons.inj (h.symm.trans hr)).2
      obtain ⟨h1, h2, -⟩ := hp.running hrun
      have h0 : ThreadEvent.initEnd ∉ trace.map (·.2) := by
        intro hm
        obtain ⟨e, he, h3⟩ := List.mem_map.1 hm
        exact h2 e he h3
      refine ⟨?_, ?_, ?_, ?_, ?_⟩
      · intro hf; cases hf
      · intro hf; cases hf
      · intro _
        refine ⟨by simpa using h1, ?_⟩
        simp [List.count_eq_zero.2 h0]
      · intro j hj
        exfalso
        by_cases hji : j = i
        · subst hji; rw [hi] at hj; exact hn hj
        · rw [hother hji] at hj
          exact hji (huniq j hj)
      · intro hf; exact absurd rfl hf
  | later rest h hfl =>
      have hi : (p.set .done i rest).todo i = rest := by simp [Threads.set]
      refine ⟨?_, ?_, ?_, ?_, ?_⟩
      · intro hf; cases hf
      · intro hf; cases hf
      · intro _
        simpa using hp.done hfl
      · intro j hj
        exfalso
        have hm : .finish ∈ p.todo j := by
          by_cases hji : j = i
          · subst hji; rw [hi] at hj; rw [h]; exact List.mem_cons_of_mem _ hj
          · rw [hother hji] at hj; exact hj
        have := (hp.one j hm).1
        rw [hfl] at this
        cases this
      · intro hf; exact absurd rfl hf

theorem mem_clientSteps {s : ThreadStep} {r : ClientRun} (h : s ∈ clientSteps r) : s ≠ .finish := by
  obtain ⟨c, -, rfl⟩ := List.mem_map.1 h
  split <;> simp

theorem guarded_client (r : ClientRun) : Guarded (clientSteps r) := by
  intro a b hab
  unfold clientSteps at hab
  obtain ⟨l1, l2, h1, h2, h3⟩ := List.map_eq_append_iff.1 hab
  obtain ⟨c, l3, rfl, h4, h5⟩ := List.map_eq_cons_iff.1 h3
  have hc : c = .doConnect := by
    split at h4
    · cases h4
    · injection h4
  subst hc
  have := C83_init_before_connect [r] l1 l3 (by
    rw [← h1]
    simp [processCalls])
  left
  rw [← h2]
  exact List.mem_map.2 ⟨_, this, by simp⟩

theorem inv_new (runs : Nat → List ClientRun) : ThreadsInv (Threads.new runs) [] := by
  have hn : ∀ i, .finish ∉ (Threads.new runs).todo i := by
    intro i h
    obtain ⟨r, -, h⟩ := List.mem_flatMap.1 h
    exact mem_clientSteps h rfl
  refine ⟨fun _ e he => (by cases he), fun h => (by cases h), fun h => (by cases h),
    fun i hi => absurd hi (hn i), fun _ i => ?_⟩
  show Guarded ((runs i).flatMap clientSteps)
  induction runs i with
  | nil => intro a b hab; simp at hab
  | cons r rs ih => exact (guarded_client r).append ih

theorem inv_run {runs : Nat → List ClientRun} {trace : List (Nat × ThreadEvent)} {p : Threads}
    (h : ThreadsRun (Threads.new runs) trace p) : ThreadsInv p trace := by
  induction h with
  | start => exact inv_new runs
  | step trace q r i e _ hs ih => exact inv_step ih hs

/-! ## C111 -/

/-- C111. However the threads interleave, the library is initialised at most once. -/
theorem C111_init_once (runs : Nat → List ClientRun) (trace : List (Nat × ThreadEvent)) (p : Threads)
    (h : ThreadsRun (Threads.new runs) trace p) :
    (trace.map (·.2)).count .initBegin ≤ 1 ∧ (trace.map (·.2)).count .initEnd ≤ 1 := by
  have hp := inv_run h
  cases hf : p.flag with
  | fresh =>
      have h0 : ∀ ev, ev = .initBegin ∨ ev = .initEnd → (trace.map (·.2)).count ev = 0 := by
        intro ev hev
        refine List.count_eq_zero.2 fun hm => ?_
        obtain ⟨e, he, rfl⟩ := List.mem_map.1 hm
        have := hp.fresh hf e he
        rcases hev with h | h
        · exact this.1 h
        · exact this.2 h
      rw [h0 _ (Or.inl rfl), h0 _ (Or.inr rfl)]
      omega
  | running =>
      obtain ⟨h1, h2, -⟩ := hp.running hf
      have h0 : (trace.map (·.2)).count .initEnd = 0 := List.count_eq_zero.2 fun hm => by
        obtain ⟨e, he, h3⟩ := List.mem_map.1 hm
        exact h2 e he h3
      omega
  | done => have := hp.done hf; omega

/-- C111. No thread attempts a connection before the initialisation has returned. -/
theorem C111_init_before_connect (runs : Nat → List ClientRun) (trace : List (Nat × ThreadEvent))
    (p : Threads) (h : ThreadsRun (Threads.new runs) trace p) (before after : List (Nat × ThreadEvent))
    (i : Nat) (ht : trace = before ++ (i, .call .doConnect) :: after) :
    ∃ j, (j, .initEnd) ∈ before := by
  induction h generalizing after with
  | start => simp at ht
  | step trace q r j e hr hs ih =>
      rcases List.eq_nil_or_concat after with rfl | ⟨init, last, rfl⟩
      · obtain ⟨rfl, he⟩ := List.append_inj' ht rfl
        injection he with he _
        injection he with h1 h2
        subst h1 h2
        have hq := inv_run hr
        cases hs with
        | call c rest hc =>
            have hd : q.flag = .done := by
              by_contra hd
              have := hq.guarded hd j
              rw [hc] at this
              rcases this [] rest rfl with h | h <;> cases h
            have hcount := (hq.done hd).2
            have hm : ThreadEvent.initEnd ∈ trace.map (·.2) := List.count_pos_iff.1 (by omega)
            obtain ⟨⟨k, e⟩, he, h3⟩ := List.mem_map.1 hm
            simp only at h3
            subst h3
            exact ⟨k, he⟩
      · rw [List.concat_eq_append, ← List.cons_append, ← List.append_assoc] at ht
        exact ih init (List.append_inj' ht rfl).1

theorem steps_bound {p0 p : Threads} {trace : List (Nat × ThreadEvent)} (h : ThreadsRun p0 trace p)
    (i : Nat) : (trace.filter (fun x => x.1 = i)).length + 2 * (p.todo i).length ≤
      2 * (p0.todo i).length + (p.todo i).count .finish := by
  induction h with
  | start => simp
  | step trace q r j e _ hs ih =>
      by_cases hij : i = j
      · subst hij
        cases hs with
        | call c rest h =>
            rw [h] at ih
            simp only [Threads.set, if_pos, List.filter_append, List.length_append] at ih ⊢
            simp at ih ⊢
            omega
        | first rest h hf =>
            rw [h] at ih
            simp only [Threads.set, if_pos, List.filter_append, List.length_append] at ih ⊢
            simp at ih ⊢
            omega
        | finish rest h =>
            rw [h] at ih
            simp only [Threads.set, if_pos, List.filter_append, List.length_append] at ih ⊢
            simp at ih ⊢
            omega
        | later rest h hf =>
            rw [h] at ih
            simp only [Threads.set, if_pos, List.filter_append, List.length_append] at ih ⊢
            simp at ih ⊢
            omega
      · rw [hs.todo hij, List.filter_append, List.filter_cons_of_neg (by simpa using fun h => hij h.symm)]
        simpa using ih

theorem callsOf_run {p0 p : Threads} {trace : List (Nat × ThreadEvent)} (h : ThreadsRun p0 trace p)
    (i : Nat) : callsOf i trace ++ stepCalls (p.todo i) = stepCalls (p0.todo i) := by
  induction h with
  | start => rfl
  | step trace q r j e _ hs ih =>
      rw [← ih]
      unfold callsOf
      rw [List.filterMap_append, List.append_assoc]
      congr 1
      by_cases hij : i = j
      · subst hij
        cases hs with
        | call c rest h => rw [h]; simp [Threads.set, stepCalls]
        | first rest h hf => rw [h]; simp [Threads.set, stepCalls]
        | finish rest h => rw [h]; simp [Threads.set, stepCalls]
        | later rest h hf => rw [h]; simp [Threads.set, stepCalls]
      · rw [hs.todo hij]
        simp only [List.filterMap_cons, List.filterMap_nil, if_neg (fun h : j = i => hij h.symm),
          List.nil_append]

theorem LegalCalls.noInit {l n : Live} {cs : List TlsCall} (h : LegalCalls l cs n) :
    LegalCalls l (cs.filter (· ≠ .libraryInit)) n := by
  induction h with
  | nil l => exact .nil l
  | cons l m n c cs hc _ ih =>
      by_cases h0 : c = .libraryInit
      · subst h0
        rw [List.filter_cons_of_neg (by simp)]
        cases hc with
        | init => exact ih
        | useBio _ h => exact absurd h (by simp [TlsCall.UsesBio])
      · rw [List.filter_cons_of_pos (by simpa using h0)]
        exact .cons _ _ _ _ _ hc ih

theorem LegalCalls.split {l n : Live} {as bs : List TlsCall} (h : LegalCalls l (as ++ bs) n) :
    ∃ m, LegalCalls l as m ∧ LegalCalls m bs n := by
  induction as generalizing l with
  | nil => exact ⟨l, .nil l, h⟩
  | cons a as ih =>
      cases h with
      | cons _ m _ _ _ h1 h2 =>
          obtain ⟨k, h3, h4⟩ := ih h2
          exact ⟨k, .cons _ _ _ _ _ h1 h3, h4⟩

theorem stepCalls_client (r : ClientRun) : stepCalls (clientSteps r) =
    (clientCalls false r.host r.port r.mode r.env r.uses).filter (· ≠ .libraryInit) := by
  unfold stepCalls clientSteps
  generalize clientCalls false r.host r.port r.mode r.env r.uses = cs
  induction cs with
  | nil => rfl
  | cons c cs ih =>
      rw [List.map_cons]
      by_cases h : c = .libraryInit
      · rw [if_pos h, List.filter_cons_of_neg (by simpa using h), List.filterMap_cons_none rfl, ih]
      · rw [if_neg h, List.filter_cons_of_pos (by simpa using h)]
        exact congrArg (c :: ·) ih

theorem stepCalls_runs (rs : List ClientRun) : stepCalls (rs.flatMap clientSteps) =
    rs.flatMap fun r =>
      (clientCalls false r.host r.port r.mode r.env r.uses).filter (· ≠ .libraryInit) := by
  induction rs with
  | nil => rfl
  | cons r rs ih =>
      rw [List.flatMap_cons, List.flatMap_cons, ← ih, ← stepCalls_client]
      exact List.filterMap_append

/-- C111. No thread waits for ever: as long as some thread has something left to do, some thread
can go on, and a thread cannot make more than two steps for each one it has to do. -/
theorem C111_no_deadlock (runs : Nat → List ClientRun) (trace : List (Nat × ThreadEvent)) (p : Threads)
    (h : ThreadsRun (Threads.new runs) trace p) :
    ((∃ i, p.todo i ≠ []) → ∃ i e q, ThreadsStep p i e q) ∧
    ∀ i, (trace.filter (fun x => x.1 = i)).length ≤ 2 * ((runs i).flatMap clientSteps).length := by
  constructor
  · rintro ⟨i, hi⟩
    have hp := inv_run h
    obtain ⟨s, rest, hs⟩ := List.exists_cons_of_ne_nil hi
    cases s with
    | call c => exact ⟨i, _, _, .call p i c rest hs⟩
    | finish => exact ⟨i, _, _, .finish p i rest hs⟩
    | once =>
        cases hf : p.flag with
        | fresh => exact ⟨i, _, _, .first p i rest hs hf⟩
        | running =>
            obtain ⟨-, -, j, r, hr⟩ := hp.running hf
            exact ⟨j, _, _, .finish p j r hr⟩
        | done => exact ⟨i, _, _, .later p i rest hs hf⟩
  · intro i
    have h1 := steps_bound h i
    have h2 : (p.todo i).count .finish ≤ (p.todo i).length := List.count_le_length
    change _ ≤ 2 * ((runs i).flatMap clientSteps).length + _ at h1
    omega

/-- C111. Each thread makes the calls it would make alone, in that order, whatever the others do:
all of them on live objects, and when it has finished every object it created is freed. -/
theorem C111_ownership (runs : Nat → List ClientRun) (trace : List (Nat × ThreadEvent)) (p : Threads)
    (h : ThreadsRun (Threads.new runs) trace p) (i : Nat) :
    callsOf i trace <+: ((runs i).flatMap fun r =>
      (clientCalls false r.host r.port r.mode r.env r.uses).filter (· ≠ .libraryInit)) ∧
    ∃ live, LegalCalls ⟨false, false⟩ (callsOf i trace) live ∧
      (p.todo i = [] → live = ⟨false, false⟩ ∧ callsOf i trace = ((runs i).flatMap fun r =>
        (clientCalls false r.host r.port r.mode r.env r.uses).filter (· ≠ .libraryInit))) := by
  have hrun := callsOf_run h i
  change _ = stepCalls ((runs i).flatMap clientSteps) at hrun
  have hlegal : LegalCalls ⟨false, false⟩ (stepCalls ((runs i).flatMap clientSteps)) ⟨false, false⟩ := by
    rw [stepCalls_runs]
    induction runs i with
    | nil => exact .nil _
    | cons r rs ih =>
        rw [List.flatMap_cons]
        exact (C83_ownership false r.host r.port r.mode r.env r.uses).noInit.append ih
  rw [stepCalls_runs] at hrun hlegal
  refine ⟨⟨_, hrun⟩, ?_⟩
  rw [← hrun] at hlegal
  obtain ⟨m, h1, h2⟩ := hlegal.split
  refine ⟨m, h1, fun hd => ?_⟩
  rw [hd] at h2 hrun
  cases h2
  exact ⟨rfl, by simpa [stepCalls] using hrun⟩

theorem client_first (r : ClientRun) :
    (∃ ok rest, clientCalls false r.host r.port r.mode r.env r.uses = .ctxNew ok :: rest) ∧
    (r.env.ctxOk = true → r.env.bioOk = true →
      ∃ rest, clientCalls false r.host r.port r.mode r.env r.uses =
        .ctxNew true :: .bioNew true :: .libraryInit :: rest) := by
  obtain ⟨mid, hm, -⟩ := connectBody_calls false r.host r.port r.mode r.env.toTlsOutcome
  obtain ⟨res, calls, hb⟩ : ∃ res calls,
      connectBody false r.host r.port r.mode r.env.toTlsOutcome = (res, calls) := ⟨_, _, rfl⟩
  rw [hb] at hm
  simp only [Bool.false_eq_true, if_false, List.cons_append, List.nil_append] at hm
  subst hm
  unfold clientCalls construct
  constructor
  · by_cases h1 : r.env.ctxOk = false
    · rw [if_pos h1]; exact ⟨_, _, rfl⟩
    · rw [if_neg h1]
      by_cases h2 : r.env.bioOk = false
      · rw [if_pos h2]; exact ⟨_, _, rfl⟩
      · rw [if_neg h2, hb]
        cases res <;> exact ⟨_, _, rfl⟩
  · intro h1 h2
    rw [if_neg (by simp [h1]), if_neg (by simp [h2]), hb]
    cases res <;> exact ⟨_, rfl⟩

/-- C111, where it fails: a thread can create its context while another one is still initialising
the library; OpenSSL before 1.1 requires the initialisation to be complete. -/
theorem C111_init_first_violated (runs : Nat → List ClientRun) (r0 r1 : ClientRun)
    (rs0 rs1 : List ClientRun) (h0 : runs 0 = r0 :: rs0) (h1 : runs 1 = r1 :: rs1)
    (hctx : r0.env.ctxOk = true) (hbio : r0.env.bioOk = true) :
    ∃ ok p, ThreadsRun (Threads.new runs) [(0, .call (.ctxNew true)), (0, .call (.bioNew true)),
      (0, .initBegin), (1, .call (.ctxNew ok))] p := by
  obtain ⟨ok, rest1, e1⟩ := (client_first r1).1
  obtain ⟨rest0, e0⟩ := (client_first r0).2 hctx hbio
  have t0 : ∃ tail, (Threads.new runs).todo 0 =
      .call (.ctxNew true) :: .call (.bioNew true) :: .once :: tail := by
    show ∃ tail, (runs 0).flatMap clientSteps = _
    rw [h0, List.flatMap_cons]
    unfold clientSteps
    rw [e0]
    exact ⟨_, rfl⟩
  have t1 : ∃ tail, (Threads.new runs).todo 1 = .call (.ctxNew ok) :: tail := by
    show ∃ tail, (runs 1).flatMap clientSteps = _
    rw [h1, List.flatMap_cons]
    unfold clientSteps
    rw [e1]
    exact ⟨_, rfl⟩
  obtain ⟨tail0, t0⟩ := t0
  obtain ⟨tail1, t1⟩ := t1
  have s1 := ThreadsRun.step [] _ _ 0 _ .start (.call (Threads.new runs) 0 _ _ t0)
  have s2 := ThreadsRun.step _ _ _ 0 _ s1
    (.call _ 0 (.bioNew true) (.once :: tail0) (by simp [Threads.set]))
  have s3 := ThreadsRun.step _ _ _ 0 _ s2 (.first _ 0 tail0 (by simp [Threads.set]) rfl)
  have s4 := ThreadsRun.step _ _ _ 1 _ s3
    (.call _ 1 (.ctxNew ok) tail1 (by simpa [Threads.set] using t1))
  exact ⟨ok, _, s4⟩

/-- Two threads that each make a client: the second one waits in `call_once` while the first one
initialises, and goes on afterwards. -/
example : ∃ (r : ClientRun) (p : Threads),
    r.env.ctxOk = true ∧ r.env.bioOk = true ∧
    ThreadsRun (Threads.new fun i => if i < 2 then [r] else [])
      [(0, .call (.ctxNew true)), (1, .call (.ctxNew true)), (0, .call (.bioNew true)),
       (1, .call (.bioNew true)), (1, .initBegin), (1, .initEnd), (0, .onceReturns)] p := by
  refine ⟨⟨bstr "h", 443, .verifyNone, ⟨⟨false, 0, 0, 0, 0, 0, []⟩, true, true⟩, []⟩, _, rfl, rfl,
    .step [_, _, _, _, _, _] _ _ 0 _ (.step [_, _, _, _, _] _ _ 1 _ (.step [_, _, _, _] _ _ 1 _
    (.step [_, _, _] _ _ 1 _ (.step [_, _] _ _ 0 _ (.step [_] _ _ 1 _ (.step [] _ _ 0 _ .start
    (.call _ _ _ _ rfl)) (.call _ _ _ _ rfl)) (.call _ _ _ _ rfl)) (.call _ _ _ _ rfl))
    (.first _ _ _ rfl rfl)) (.finish _ _ _ rfl)) (.later _ _ _ rfl rfl)⟩

end Mh2c
