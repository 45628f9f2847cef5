/-
C140: memory runs out while a client is made.
-/
import Verif.Model.MemoryTls
import Verif.Props.Memory
import Verif.Props.Tls

namespace Mh2c

theorem body_starts (loaded : Bool) (host : Bytes) (port : UInt16) (mode : VerifyMode) (o : TlsOutcome)
    (h : ¬ o.hasSsl = false) :
    (if loaded then [] else [TlsCall.libraryInit]) ++
      [.setConnHostname (terminated (hostPort host port)), .getSsl] ++ [.setAutoRetry] <+:
      (connectBody loaded host port mode o).2 := by
  unfold connectBody
  simp only
  rw [if_neg h]
  generalize (if loaded then [] else [TlsCall.libraryInit]) = c0
  repeat' split
  all_goals simp only [List.append_assoc, List.prefix_append_right_inj]
  all_goals simp

theorem connectBodyMem_cases (loaded : Bool) (host : Bytes) (port : UInt16) (mode : VerifyMode)
    (o : TlsOutcome) (m : Memory) :
    (∃ r, (connectBodyMem loaded host port mode o m).1 = .res r ∧
      connectBody loaded host port mode o = (r, (connectBodyMem loaded host port mode o m).2.1)) ∨
    ((connectBodyMem loaded host port mode o m).1 = .badAlloc ∧
      (connectBodyMem loaded host port mode o m).2.1 <+: (connectBody loaded host port mode o).2 ∧
      (if loaded then [] else [TlsCall.libraryInit]) <+:
        (connectBodyMem loaded host port mode o m).2.1) := by
  have h0 : (if loaded then [] else [TlsCall.libraryInit]) <+: (connectBody loaded host port mode o).2 := by
    obtain ⟨mid, h, -⟩ := connectBody_calls loaded host port mode o
    rw [h]
    exact List.prefix_append _ _
  have h1 := body_starts loaded host port mode o
  have hr : ∀ (m : Memory) (calls : List TlsCall),
      (if loaded then [] else [TlsCall.libraryInit]) <+: calls →
      (∃ r : Res Unit, (raise (.throw .runtimeError) m).1 = .res r ∧
        ((.throw .runtimeError : Res Unit), calls) = (r, calls)) ∨
      ((raise (α := Unit) (.throw .runtimeError) m).1 = .badAlloc ∧ calls <+: calls ∧
        (if loaded then [] else [TlsCall.libraryInit]) <+: calls) := by
    intro m calls hp
    rcases raise_cases (α := Unit) (.throw .runtimeError) m with h | ⟨h, -⟩
    · exact Or.inl ⟨_, h, rfl⟩
    · exact Or.inr ⟨h, List.prefix_refl _, hp⟩
  unfold connectBodyMem
  unfold connectBody at h0 h1 ⊢
  simp only at h0 h1 ⊢
  generalize (if loaded then [] else [TlsCall.libraryInit]) = c0 at *
  by_cases m1 : m.next.1 = false
  · rw [if_pos m1]
    exact Or.inr ⟨rfl, h0, List.prefix_refl _⟩
  rw [if_neg m1]
  by_cases a1 : o.hasSsl = false
  · rw [if_pos a1, if_pos a1]
    exact hr _ _ (by simp)
  have h1 := h1 a1
  rw [if_neg a1] at h0 h1 ⊢
  rw [if_neg a1]
  simp only [List.append_assoc, List.cons_append, List.nil_append] at h0 h1 ⊢
  by_cases m2 : m.next.2.next.1 = false
  · rw [if_pos m2]
    exact Or.inr ⟨rfl, h1, by simp⟩
  rw [if_neg m2]
  by_cases a2 : o.setAlpn ≠ 0
  · rw [if_pos a2, if_pos a2]
    exact hr _ _ (by simp)
  rw [if_neg a2, if_neg a2]
  by_cases a3 : o.setVerifyPaths ≠ 1
  · rw [if_pos a3, if_pos a3]
    exact hr _ _ (by simp)
  rw [if_neg a3, if_neg a3]
  by_cases a4 : o.connect ≤ 0
  · rw [if_pos a4, if_pos a4]
    exact hr _ _ (by simp)
  rw [if_neg a4, if_neg a4]
  by_cases a5 : o.handshake ≤ 0
  · rw [if_pos a5, if_pos a5]
    exact hr _ _ (by simp)
  rw [if_neg a5, if_neg a5]
  by_cases a6 : mode ≠ .verifyNone
  · simp only [a6, ne_eq, not_false_eq_true, if_true, true_and]
    by_cases a7 : o.verifyResult = 0
    · simp only [a7, not_true_eq_false, if_false, List.append_assoc, List.cons_append, List.nil_append]
      by_cases m3 : m.next.2.next.2.next.1 = false
      · rw [if_pos m3]
        refine Or.inr ⟨rfl, ?_, by simp⟩
        split <;> exact List.prefix_refl _
      rw [if_neg m3]
      split
      · exact hr _ _ (by simp)
      · exact Or.inl ⟨_, rfl, rfl⟩
    · simp only [a7, not_false_eq_true, if_true]
      exact hr _ _ (by simp)
  · simp only [a6, if_false, false_and, List.append_assoc, List.cons_append, List.nil_append]
    by_cases m3 : m.next.2.next.2.next.1 = false
    · rw [if_pos m3]
      refine Or.inr ⟨rfl, ?_, by simp⟩
      split <;> exact List.prefix_refl _
    rw [if_neg m3]
    split
    · exact hr _ _ (by simp)
    · exact Or.inl ⟨_, rfl, rfl⟩

theorem constructMem_body (loaded : Bool) (host : Bytes) (port : UInt16) (mode : VerifyMode)
    (env : TlsEnv) (m : Memory) (h1 : ¬ m.next.1 = false) (h2 : ¬ env.ctxOk = false)
    (h3 : ¬ env.bioOk = false) :
    (∃ r, (constructMem loaded host port mode env m).1 = .res r ∧
      construct loaded host port mode env = (r, (constructMem loaded host port mode env m).2)) ∨
    ((constructMem loaded host port mode env m).1 = .badAlloc ∧ ∃ calls,
      (constructMem loaded host port mode env m).2 =
        [.ctxNew true, .bioNew true] ++ calls ++ [.bioFree, .ctxFree] ∧
      calls <+: (connectBody loaded host port mode env.toTlsOutcome).2 ∧
      (if loaded then [] else [TlsCall.libraryInit]) <+: calls) := by
  unfold constructMem construct
  rw [if_neg h1, if_neg h2, if_neg h3, if_neg h2, if_neg h3]
  have hc := connectBodyMem_cases loaded host port mode env.toTlsOutcome m.next.2
  rcases hb : connectBodyMem loaded host port mode env.toTlsOutcome m.next.2 with ⟨r, calls, m'⟩
  rw [hb] at hc
  rcases hc with ⟨r', h4, h5⟩ | ⟨h4, h5, h6⟩
  · cases h4
    rw [h5]
    rcases r' with _ | _ | _ | _ <;> exact Or.inl ⟨_, rfl, rfl⟩
  · cases h4
    exact Or.inr ⟨rfl, calls, rfl, h5, h6⟩

theorem connectBodyMem_nil (loaded : Bool) (host : Bytes) (port : UInt16) (mode : VerifyMode)
    (o : TlsOutcome) : (connectBodyMem loaded host port mode o []).1 ≠ .badAlloc := by
  unfold connectBodyMem
  simp only [Memory.next, raise_nil, Bool.true_eq_false, if_false]
  repeat' split
  all_goals exact nofun

/-- C140. A construction that does not end with `std::bad_alloc` ends as where memory never runs out, with
the same calls of OpenSSL; and so does every construction with enough memory, whatever happened before. -/
theorem C140_same (loaded : Bool) (host : Bytes) (port : UInt16) (mode : VerifyMode) (env : TlsEnv) :
    (∀ m r, (constructMem loaded host port mode env m).1 = .res r →
      construct loaded host port mode env = (r, (constructMem loaded host port mode env m).2)) ∧
    (constructMem loaded host port mode env []).1 = .res (construct loaded host port mode env).1 := by
  have key : ∀ m r, (constructMem loaded host port mode env m).1 = .res r →
      construct loaded host port mode env = (r, (constructMem loaded host port mode env m).2) := by
    intro m r h
    by_cases h1 : m.next.1 = false
    · unfold constructMem at h
      rw [if_pos h1] at h
      cases h
    by_cases h2 : env.ctxOk = false
    · unfold constructMem construct at *
      rw [if_neg h1, if_pos h2] at *
      rw [if_pos h2]
      rcases raise_cases (α := Unit) (.throw .runtimeError) m.next.2 with h3 | ⟨h3, -⟩
      · obtain rfl := Ended.res.inj (h3.symm.trans h)
        rfl
      · cases h3.symm.trans h
    by_cases h3 : env.bioOk = false
    · unfold constructMem construct at *
      rw [if_neg h1, if_neg h2, if_pos h3] at *
      rw [if_neg h2, if_pos h3]
      rcases raise_cases (α := Unit) (.throw .runtimeError) m.next.2 with h4 | ⟨h4, -⟩
      · obtain rfl := Ended.res.inj (h4.symm.trans h)
        rfl
      · cases h4.symm.trans h
    rcases constructMem_body loaded host port mode env m h1 h2 h3 with ⟨r', h4, h5⟩ | ⟨h4, -⟩
    · obtain rfl := Ended.res.inj (h4.symm.trans h)
      exact h5
    · cases h4.symm.trans h
  refine ⟨key, ?_⟩
  have hne : (constructMem loaded host port mode env []).1 ≠ .badAlloc := by
    unfold constructMem
    simp only [Memory.next, raise_nil, Bool.true_eq_false, if_false]
    have h := connectBodyMem_nil loaded host port mode env.toTlsOutcome
    split
    · exact nofun
    · split
      · exact nofun
      · rcases hb : connectBodyMem loaded host port mode env.toTlsOutcome [] with ⟨(_ | _ | _ | _) | _, c, m⟩
        · exact nofun
        · exact nofun
        · exact nofun
        · exact nofun
        · rw [hb] at h; exact absurd rfl h
  cases hr : (constructMem loaded host port mode env []).1 with
  | res r => rw [key [] r hr]
  | badAlloc => exact absurd hr hne

/-- C140. Where a construction that runs out of memory stops: it has made the first calls of those it makes
where memory does not run out, and after them it frees what it has made. -/
theorem C140_stops (loaded : Bool) (host : Bytes) (port : UInt16) (mode : VerifyMode) (env : TlsEnv)
    (m : Memory) (h : (constructMem loaded host port mode env m).1 = .badAlloc) :
    ∃ before release, (constructMem loaded host port mode env m).2 = before ++ release ∧
      before <+: (construct loaded host port mode env).2 ∧
      (release = [] ∨ release = [.ctxFree] ∨ release = [.bioFree, .ctxFree]) := by
  by_cases h1 : m.next.1 = false
  · refine ⟨[], [], ?_, List.nil_prefix, Or.inl rfl⟩
    unfold constructMem
    rw [if_pos h1]
    rfl
  by_cases h2 : env.ctxOk = false
  · refine ⟨[.ctxNew false], [], ?_, ?_, Or.inl rfl⟩
    · unfold constructMem
      rw [if_neg h1, if_pos h2]
      rfl
    · unfold construct
      rw [if_pos h2]
  by_cases h3 : env.bioOk = false
  · refine ⟨[.ctxNew true, .bioNew false], [.ctxFree], ?_, ?_, Or.inr (Or.inl rfl)⟩
    · unfold constructMem
      rw [if_neg h1, if_neg h2, if_pos h3]
      rfl
    · unfold construct
      rw [if_neg h2, if_pos h3]
      simp
  rcases constructMem_body loaded host port mode env m h1 h2 h3 with ⟨r', h4, -⟩ | ⟨-, calls, h4, h5, -⟩
  · cases h4.symm.trans h
  · refine ⟨[.ctxNew true, .bioNew true] ++ calls, [.bioFree, .ctxFree], h4, ?_, Or.inr (Or.inr rfl)⟩
    have e : [.ctxNew true, .bioNew true] ++ calls <+:
        [.ctxNew true, .bioNew true] ++ (connectBody loaded host port mode env.toTlsOutcome).2 := by
      simpa using h5
    unfold construct
    rw [if_neg h2, if_neg h3]
    rcases hx : connectBody loaded host port mode env.toTlsOutcome with ⟨_ | _ | _ | _, cs⟩ <;>
      rw [hx] at e
    · exact e
    all_goals exact e.trans (List.prefix_append _ _)

theorem LegalCalls.body_prefix {loaded : Bool} {host : Bytes} {port : UInt16} {mode : VerifyMode}
    {o : TlsOutcome} {calls : List TlsCall} (h : calls <+: (connectBody loaded host port mode o).2) :
    LegalCalls ⟨true, true⟩ calls ⟨true, true⟩ := by
  obtain ⟨mid, h1, h2, -, -⟩ := connectBody_calls loaded host port mode o
  rw [h1] at h
  refine legal_uses fun c hc => ?_
  have hc := h.subset hc
  rw [List.mem_append] at hc
  rcases hc with hc | hc
  · cases loaded
    · simp only [Bool.false_eq_true, if_false, List.mem_singleton] at hc
      exact Or.inr (Or.inr hc)
    · cases hc
  · rcases h2 c hc with h | h
    · exact Or.inl h
    · exact Or.inr (Or.inl h)

/-- A client with memory ends like one without limits, or its construction ran out of memory. -/
theorem clientCallsMem_cases (loaded : Bool) (r : ClientRun) (m : Memory) :
    (clientCallsMem loaded r m = clientCalls loaded r.host r.port r.mode r.env r.uses ∧
      m.next.1 = true) ∨
    ((constructMem loaded r.host r.port r.mode r.env m).1 = .badAlloc ∧
      clientCallsMem loaded r m = (constructMem loaded r.host r.port r.mode r.env m).2) := by
  have hs := (C140_same loaded r.host r.port r.mode r.env).1 m
  unfold clientCallsMem clientCalls
  rcases hc : constructMem loaded r.host r.port r.mode r.env m with ⟨x | _, calls⟩
  · rw [hc] at hs
    have := hs x rfl
    rw [this]
    refine Or.inl ⟨?_, ?_⟩
    · rcases x with _ | _ | _ | _ <;> rfl
    · cases hm : m.next.1
      · unfold constructMem at hc
        rw [if_pos hm] at hc
        cases hc
      · rfl
  · exact Or.inr ⟨rfl, rfl⟩

/-- C140. Whatever construction runs out of memory, wherever, in whatever sequence of clients of a process:
every call is made on live objects, and each object is freed exactly once, the BIO before the context. -/
theorem C140_released (loaded : Bool) (runs : List (ClientRun × Memory)) :
    LegalCalls ⟨false, false⟩ (processCallsMem loaded runs) ⟨false, false⟩ := by
  induction runs generalizing loaded with
  | nil => exact .nil _
  | cons rm rs ih =>
      obtain ⟨r, m⟩ := rm
      refine LegalCalls.append ?_ (ih _)
      rcases clientCallsMem_cases loaded r m with ⟨h, -⟩ | ⟨hb, h⟩
      · rw [h]
        exact C83_ownership loaded r.host r.port r.mode r.env r.uses
      · rw [h]
        by_cases h1 : m.next.1 = false
        · unfold constructMem
          rw [if_pos h1]
          exact .nil _
        by_cases h2 : r.env.ctxOk = false
        · unfold constructMem
          rw [if_neg h1, if_pos h2]
          exact .cons _ _ _ _ _ .ctxFailed (.nil _)
        by_cases h3 : r.env.bioOk = false
        · unfold constructMem
          rw [if_neg h1, if_neg h2, if_pos h3]
          exact .cons _ _ _ _ _ .ctxNew
            (.cons _ _ _ _ _ .bioFailed (.cons _ _ _ _ _ .ctxFree (.nil _)))
        rcases constructMem_body loaded r.host r.port r.mode r.env m h1 h2 h3 with
          ⟨r', h4, -⟩ | ⟨-, calls, h4, h5, -⟩
        · cases h4.symm.trans hb
        · rw [h4]
          exact .cons _ _ _ _ _ .ctxNew (.cons _ _ _ _ _ .bioNew ((LegalCalls.body_prefix h5).append
            (.cons _ _ _ _ _ .bioFree (.cons _ _ _ _ _ .ctxFree (.nil _)))))

/-- What a client that runs out of memory does before and after the library is initialised. -/
theorem clientCallsMem_start (loaded : Bool) (r : ClientRun) (m : Memory) :
    (loadedAfterMem loaded r.env m = loaded ∧ .libraryInit ∉ clientCallsMem loaded r m ∧
      .doConnect ∉ clientCallsMem loaded r m) ∨
    (loadedAfterMem loaded r.env m = true ∧ ∃ tail, .libraryInit ∉ tail ∧
      clientCallsMem loaded r m =
        [.ctxNew true, .bioNew true] ++ (if loaded then [] else [.libraryInit]) ++ tail) := by
  rcases clientCallsMem_cases loaded r m with ⟨h, hm⟩ | ⟨hb, h⟩
  · rw [h]
    have e : loadedAfterMem loaded r.env m = loadedAfter loaded r.env := by
      unfold loadedAfterMem loadedAfter
      rw [hm, Bool.true_and]
    rw [e]
    rcases clientCalls_start loaded r with ⟨h1, h2 | h2⟩ | h1
    · exact Or.inl ⟨h1, by rw [h2]; simp, by rw [h2]; simp⟩
    · exact Or.inl ⟨h1, by rw [h2]; simp, by rw [h2]; simp⟩
    · exact Or.inr h1
  · rw [h]
    by_cases h1 : m.next.1 = false
    · left
      unfold constructMem loadedAfterMem
      rw [if_pos h1, h1]
      simp
    by_cases h2 : r.env.ctxOk = false
    · left
      unfold constructMem loadedAfterMem
      rw [if_neg h1, if_pos h2, h2]
      simp
    by_cases h3 : r.env.bioOk = false
    · left
      unfold constructMem loadedAfterMem
      rw [if_neg h1, if_neg h2, if_pos h3, h3]
      simp
    right
    refine ⟨by unfold loadedAfterMem; simp at h1 h2 h3; simp [h1, h2, h3], ?_⟩
    rcases constructMem_body loaded r.host r.port r.mode r.env m h1 h2 h3 with
      ⟨r', h4, -⟩ | ⟨-, calls, h4, h5, h6⟩
    · cases h4.symm.trans hb
    · obtain ⟨mid, b1, b2, -, -⟩ := connectBody_calls loaded r.host r.port r.mode r.env.toTlsOutcome
      obtain ⟨rest, rfl⟩ := h6
      rw [b1, List.prefix_append_right_inj] at h5
      refine ⟨rest ++ [.bioFree, .ctxFree], ?_, by rw [h4]; simp only [List.append_assoc]⟩
      simp only [List.mem_append, not_or]
      refine ⟨fun hx => ?_, by simp⟩
      rcases b2 _ (h5.subset hx) with h | h
      · exact h
      · cases h

/-- C140. Running out of memory does not disturb the initialisation of OpenSSL: in any process it is done at
most once, and before every attempt to connect. -/
theorem C140_init (runs : List (ClientRun × Memory)) :
    (processCallsMem false runs).count .libraryInit ≤ 1 ∧
    ∀ before after, processCallsMem false runs = before ++ .doConnect :: after →
      .libraryInit ∈ before := by
  have h1 : ∀ runs, .libraryInit ∉ processCallsMem true runs := by
    intro runs
    induction runs with
    | nil => simp [processCallsMem]
    | cons rm rs ih =>
        obtain ⟨r, m⟩ := rm
        unfold processCallsMem
        rw [List.mem_append]
        have hl : loadedAfterMem true r.env m = true := rfl
        rw [hl]
        rintro (h | h)
        · rcases clientCallsMem_start true r m with ⟨-, e, -⟩ | ⟨-, tail, ht, e⟩
          · exact e h
          · rw [e] at h
            simp only [if_true, List.append_nil, List.mem_append] at h
            exact h.elim (by simp) ht
        · exact ih h
  constructor
  · induction runs with
    | nil => simp [processCallsMem]
    | cons rm rs ih =>
        obtain ⟨r, m⟩ := rm
        unfold processCallsMem
        rw [List.count_append]
        rcases clientCallsMem_start false r m with ⟨hl, e, -⟩ | ⟨hl, tail, ht, e⟩
        · rw [hl, List.count_eq_zero_of_not_mem e]
          simpa using ih
        · rw [e, hl, List.count_eq_zero_of_not_mem (h1 rs)]
          simp [List.count_eq_zero_of_not_mem ht]
  · induction runs with
    | nil => intro before after h; simp [processCallsMem] at h
    | cons rm rs ih =>
        obtain ⟨r, m⟩ := rm
        intro before after h
        unfold processCallsMem at h
        rcases clientCallsMem_start false r m with ⟨hl, -, e⟩ | ⟨hl, tail, ht, e⟩
        · rw [hl] at h
          rcases List.append_eq_append_iff.1 h with ⟨as, h2, h3⟩ | ⟨bs, h2, h3⟩
          · rw [h2]
            exact List.mem_append_right _ (ih as after h3)
          · exfalso
            match bs, h2, h3 with
            | [], h2, h3 =>
                have h4 := ih [] after (by simpa using h3.symm)
                cases h4
            | b :: bs, h2, h3 =>
                obtain rfl := (List.cons.inj h3).1
                exact e (by rw [h2]; simp)
        · rw [e] at h
          simp only [Bool.false_eq_true, if_false, List.cons_append, List.nil_append] at h
          match before, h with
          | [], h => cases (List.cons.inj h).1
          | [a], h => cases (List.cons.inj (List.cons.inj h).2).1
          | [a, b], h => cases (List.cons.inj (List.cons.inj (List.cons.inj h).2).2).1
          | a :: b :: c :: before, h =>
              obtain rfl := (List.cons.inj (List.cons.inj (List.cons.inj h).2).2).1
              simp

/-- Non-vacuity of `C140_stops` and `C140_released`: each place where memory can run out is reached by a
construction that succeeds with memory. -/
example :
    let env : TlsEnv := ⟨⟨true, 0, 1, 1, 1, 0, [0x68, 0x32]⟩, true, true⟩
    let run := fun m => constructMem false (bstr "h") 443 .verifyServerCert env m
    (run []).1 = .res (.ok ()) ∧
    run [false] = (.badAlloc, []) ∧
    run [true, false] =
      (.badAlloc, [.ctxNew true, .bioNew true, .libraryInit, .bioFree, .ctxFree]) ∧
    run [true, true, false] =
      (.badAlloc, [.ctxNew true, .bioNew true, .libraryInit, .setConnHostname (bstr "h:443"), .getSsl,
        .setAutoRetry, .bioFree, .ctxFree]) ∧
    (run [true, true, true, false]).1 = .badAlloc ∧
    .getAlpn ∈ (run [true, true, true, false]).2 ∧
    constructMem false (bstr "h") 443 .verifyServerCert { env with ctxOk := false } [true, false] =
      (.badAlloc, [.ctxNew false]) ∧
    constructMem false (bstr "h") 443 .verifyServerCert { env with bioOk := false } [true, false] =
      (.badAlloc, [.ctxNew true, .bioNew false, .ctxFree]) := by
  decide +kernel

end Mh2c
