/-
C81, C82, C83: endpoint, peer identity and ownership of a connection.
-/
import Verif.Spec.Tls
import Verif.Props.Transport
import Verif.Props.Identify

namespace Mh2c

open Rfc

/-! ## C81 -/

theorem decimal_mem {x : UInt8} {n : Nat} (h : x ∈ decimal n) : 48 ≤ x.toNat ∧ x.toNat < 58 := by
  unfold decimal numeral at h
  split at h
  · simp only [ascii] at h
    have : x = 48 := by simpa using h
    subst this; decide
  · obtain ⟨d, hd, rfl⟩ := List.mem_map.1 h
    have := Nat.digits_lt_base (by omega : 1 < 10) (List.mem_reverse.1 hd)
    have hall : (List.range 10).all (fun d => decide (48 ≤ (digit d).toNat ∧ (digit d).toNat < 58)) =
        true := by decide +kernel
    exact of_decide_eq_true (List.all_eq_true.1 hall d (List.mem_range.2 this))

theorem terminated_eq {s : Bytes} (h : 0 ∉ s) : terminated s = s := by
  induction s with
  | nil => rfl
  | cons x xs ih =>
      have hx : x ≠ 0 := fun h0 => h (by simp [h0])
      have := ih (fun h0 => h (by simp [h0]))
      unfold terminated at this ⊢
      rw [List.takeWhile_cons_of_pos (by simpa using hx), this]

theorem terminated_nul {s : Bytes} (h : 0 ∉ s) (rest : Bytes) : terminated (s ++ 0 :: rest) = s := by
  induction s with
  | nil => rfl
  | cons x xs ih =>
      have hx : x ≠ 0 := fun h0 => h (by simp [h0])
      have := ih (fun h0 => h (by simp [h0]))
      unfold terminated at this ⊢
      rw [List.cons_append, List.takeWhile_cons_of_pos (by simpa using hx), this]

theorem hostPort_no_nul {host : Bytes} (h : 0 ∉ host) (port : UInt16) :
    0 ∉ host ++ 58 :: decimal port.toNat := by
  rw [List.mem_append, List.mem_cons]
  rintro (h1 | h1 | h1)
  · exact h h1
  · exact absurd h1 (by decide)
  · exact absurd (decimal_mem h1).1 (by decide)

theorem hostPort_eq (host : Bytes) (port : UInt16) :
    hostPort host port = host ++ 58 :: decimal port.toNat := by
  unfold hostPort
  rw [toString_eq, List.append_assoc]
  rfl

/-- The body decides as `connectTls` does. -/
theorem connectBody_result (loaded : Bool) (host : Bytes) (port : UInt16) (mode : VerifyMode)
    (o : TlsOutcome) : (connectBody loaded host port mode o).1 = connectTls mode o := by
  unfold connectBody connectTls
  simp only
  repeat' split
  all_goals rfl

/-- What the body does after initialising the library. -/
theorem connectBody_calls (loaded : Bool) (host : Bytes) (port : UInt16) (mode : VerifyMode)
    (o : TlsOutcome) : ∃ mid, (connectBody loaded host port mode o).2 =
      (if loaded then [] else [TlsCall.libraryInit]) ++ mid ∧
      (∀ c ∈ mid, c.UsesBio ∨ c = .setVerifyPaths) ∧
      (∀ name, .setExpectedHost name ∉ mid ∧ .setServerName name ∉ mid) ∧
      endpoints mid = [terminated (hostPort host port)] := by
  unfold connectBody endpoints
  simp only
  repeat' split
  all_goals (refine ⟨_, by simp only [List.append_assoc]; rfl, ?_, ?_, ?_⟩)
  all_goals simp [TlsCall.UsesBio]

theorem construct_ok {loaded : Bool} {host : Bytes} {port : UInt16} {mode : VerifyMode} {env : TlsEnv}
    {calls : List TlsCall} (h : construct loaded host port mode env = (.ok (), calls)) :
    env.ctxOk = true ∧ env.bioOk = true ∧ connectTls mode env.toTlsOutcome = .ok () ∧
      calls = [.ctxNew true, .bioNew true] ++
        (connectBody loaded host port mode env.toTlsOutcome).2 := by
  unfold construct at h
  split at h
  · cases h
  · rename_i h1
    split at h
    · cases h
    · rename_i h2
      have hr := connectBody_result loaded host port mode env.toTlsOutcome
      rcases hb : connectBody loaded host port mode env.toTlsOutcome with ⟨_ | _ | _ | _, cs⟩ <;>
        rw [hb] at h hr <;> simp only at h
      · exact ⟨by simpa using h1, by simpa using h2, hr.symm, ((Prod.mk.inj h).2).symm⟩
      · cases h
      · cases h
      · cases h

theorem construct_endpoints {loaded : Bool} {host : Bytes} {port : UInt16} {mode : VerifyMode}
    {env : TlsEnv} {calls : List TlsCall}
    (h : construct loaded host port mode env = (.ok (), calls)) :
    endpoints calls = [terminated (hostPort host port)] := by
  obtain ⟨-, -, -, rfl⟩ := construct_ok h
  obtain ⟨mid, h1, -, -, h2⟩ := connectBody_calls loaded host port mode env.toTlsOutcome
  rw [h1, ← h2]
  cases loaded <;> rfl

theorem connectBody_connect (loaded : Bool) (host : Bytes) (port : UInt16) (mode : VerifyMode)
    (o : TlsOutcome) :
    ((connectBody loaded host port mode o).1 ≠ .ok () ∧
      .doConnect ∉ (connectBody loaded host port mode o).2) ∨
    ∃ tail, (connectBody loaded host port mode o).2 =
      (if loaded then [] else [TlsCall.libraryInit]) ++
      [.setConnHostname (terminated (hostPort host port)), .getSsl, .setAutoRetry,
        .setAlpn [0x02, 0x68, 0x32], .setVerifyPaths, .doConnect] ++ tail ∧
      ∀ c ∈ tail, c ∈ [TlsCall.doHandshake, .getVerifyResult, .getAlpn] := by
  unfold connectBody
  simp only
  by_cases h1 : o.hasSsl = false
  · rw [if_pos h1]; exact Or.inl ⟨by simp, by cases loaded <;> simp⟩
  rw [if_neg h1]
  by_cases h2 : o.setAlpn ≠ 0
  · rw [if_pos h2]; exact Or.inl ⟨by simp, by cases loaded <;> simp⟩
  rw [if_neg h2]
  by_cases h3 : o.setVerifyPaths ≠ 1
  · rw [if_pos h3]; exact Or.inl ⟨by simp, by cases loaded <;> simp⟩
  rw [if_neg h3]
  right
  by_cases h4 : o.connect ≤ 0
  · rw [if_pos h4]; exact ⟨[], by simp, by simp⟩
  rw [if_neg h4]
  by_cases h5 : o.handshake ≤ 0
  · rw [if_pos h5]; exact ⟨[.doHandshake], by simp, by simp⟩
  rw [if_neg h5]
  by_cases h6 : mode ≠ .verifyNone
  · rw [if_pos h6]
    split
    · exact ⟨[.doHandshake, .getVerifyResult], by simp, by simp⟩
    · split <;> exact ⟨[.doHandshake, .getVerifyResult, .getAlpn], by simp, by simp⟩
  · rw [if_neg h6]
    split
    · exact ⟨[.doHandshake], by simp, by simp⟩
    · split <;> exact ⟨[.doHandshake, .getAlpn], by simp, by simp⟩

theorem construct_calls (loaded : Bool) (host : Bytes) (port : UInt16) (mode : VerifyMode)
    (env : TlsEnv) :
    ((construct loaded host port mode env).1 ≠ .ok () ∧
      .doConnect ∉ (construct loaded host port mode env).2) ∨
    ∃ tail, (construct loaded host port mode env).2 =
      [.ctxNew true, .bioNew true] ++ (if loaded then [] else [TlsCall.libraryInit]) ++
      [.setConnHostname (terminated (hostPort host port)), .getSsl, .setAutoRetry,
        .setAlpn [0x02, 0x68, 0x32], .setVerifyPaths, .doConnect] ++ tail ∧
      ∀ c ∈ tail, c ∈ [TlsCall.doHandshake, .getVerifyResult, .getAlpn, .bioFree, .ctxFree] := by
  unfold construct
  split
  · simp
  · split
    · simp
    · have hb := connectBody_connect loaded host port mode env.toTlsOutcome
      generalize connectBody loaded host port mode env.toTlsOutcome = x at hb ⊢
      rcases x with ⟨r, cs⟩
      rcases hb with ⟨h1, h2⟩ | ⟨tail, h1, h2⟩
      · refine Or.inl ?_
        rcases r with _ | _ | _ | _
        · exact absurd rfl h1
        all_goals exact ⟨by simp, by simpa using h2⟩
      · refine Or.inr ?_
        simp only at h1
        subst h1
        rcases r with _ | _ | _ | _
        · exact ⟨tail, by simp, fun c hc => by have := h2 c hc; simp at this ⊢; tauto⟩
        all_goals
          refine ⟨tail ++ [.bioFree, .ctxFree], by simp, fun c hc => ?_⟩
          rcases List.mem_append.1 hc with hc | hc
          · have := h2 c hc; simp at this ⊢; tauto
          · simp at hc ⊢; tauto

/-- Whatever fails: the endpoint is set before the connection is attempted and not changed later. -/
theorem construct_connect (loaded : Bool) (host : Bytes) (port : UInt16) (mode : VerifyMode)
    (env : TlsEnv) (h : .doConnect ∈ (construct loaded host port mode env).2) :
    endpoints ((construct loaded host port mode env).2.takeWhile (· ≠ .doConnect)) =
        [terminated (hostPort host port)] ∧
      endpoints (construct loaded host port mode env).2 = [terminated (hostPort host port)] := by
  rcases construct_calls loaded host port mode env with ⟨-, h1⟩ | ⟨tail, h1, h2⟩
  · exact absurd h h1
  · have h3 : endpoints tail = [] := by
      unfold endpoints
      rw [List.filterMap_eq_nil_iff]
      intro c hc
      have := h2 c hc
      simp at this
      rcases this with rfl | rfl | rfl | rfl | rfl <;> rfl
    rw [h1]
    refine ⟨by cases loaded <;> rfl, ?_⟩
    have : endpoints (([.ctxNew true, .bioNew true] ++ (if loaded then [] else [TlsCall.libraryInit]) ++
      [.setConnHostname (terminated (hostPort host port)), .getSsl, .setAutoRetry,
        .setAlpn [0x02, 0x68, 0x32], .setVerifyPaths, .doConnect]) ++ tail) =
        [terminated (hostPort host port)] ++ endpoints tail := by
      unfold endpoints
      rw [List.filterMap_append]
      congr 1
      cases loaded <;> rfl
    rw [this, h3]
    rfl

/-- C81. A client that attempts a connection, whether it then succeeds or not, has asked for exactly
one endpoint before and does not ask for another one: for a host name without NUL it is the host
name, a colon and the port in decimal. Missing: host names with NUL, see the violation below. -/
theorem C81_endpoint_partial (loaded : Bool) (host : Bytes) (port : UInt16) (mode : VerifyMode)
    (env : TlsEnv) (h0 : 0 ∉ host) (calls : List TlsCall)
    (h : (construct loaded host port mode env).2 = calls) (hc : .doConnect ∈ calls) :
    endpoints (calls.takeWhile (· ≠ .doConnect)) = [host ++ ascii ":" ++ decimal port.toNat] ∧
      endpoints calls = [host ++ ascii ":" ++ decimal port.toNat] := by
  subst h
  have e : terminated (hostPort host port) = host ++ ascii ":" ++ decimal port.toNat := by
    rw [hostPort_eq, terminated_eq (hostPort_no_nul h0 port), List.append_assoc]
    rfl
  rw [← e]
  exact construct_connect loaded host port mode env hc

/-- C81. A client that exists has attempted a connection. -/
theorem C81_connects (loaded : Bool) (host : Bytes) (port : UInt16) (mode : VerifyMode)
    (env : TlsEnv) (calls : List TlsCall)
    (h : construct loaded host port mode env = (.ok (), calls)) : .doConnect ∈ calls := by
  rcases construct_calls loaded host port mode env with ⟨h1, -⟩ | ⟨tail, h1, -⟩
  · rw [h] at h1; exact absurd rfl h1
  · rw [h] at h1
    simp only at h1
    rw [h1]
    simp

theorem endpoint_inj (h1 h2 : Bytes) (p1 p2 : UInt16) (z1 : 0 ∉ h1) (z2 : 0 ∉ h2)
    (h : terminated (hostPort h1 p1) = terminated (hostPort h2 p2)) : h1 = h2 ∧ p1 = p2 := by
  rw [hostPort_eq, hostPort_eq, terminated_eq (hostPort_no_nul z1 p1),
    terminated_eq (hostPort_no_nul z2 p2)] at h
  have h' := congrArg List.reverse h
  rw [List.reverse_append, List.reverse_append, List.reverse_cons, List.reverse_cons,
    List.append_assoc, List.append_assoc] at h'
  have hd : ∀ p : UInt16, 58 ∉ (decimal p.toNat).reverse := fun p hm =>
    absurd (decimal_mem (List.mem_reverse.1 hm)).2 (by decide)
  obtain ⟨e1, e2⟩ := line_inj 58 (hd p1) (hd p2) h'
  exact ⟨List.reverse_inj.1 e2,
    UInt16.toNat_inj.1 (numeral_inj (by omega) (by omega) (List.reverse_inj.1 e1))⟩

/-- C81. Clients for different hosts or ports connect to different endpoints. Missing: host names
with NUL. -/
theorem C81_endpoint_unique_partial (l1 l2 : Bool) (h1 h2 : Bytes) (p1 p2 : UInt16) (m1 m2 : VerifyMode)
    (e1 e2 : TlsEnv) (z1 : 0 ∉ h1) (z2 : 0 ∉ h2)
    (c1 : .doConnect ∈ (construct l1 h1 p1 m1 e1).2) (c2 : .doConnect ∈ (construct l2 h2 p2 m2 e2).2)
    (h : endpoints (construct l1 h1 p1 m1 e1).2 = endpoints (construct l2 h2 p2 m2 e2).2) :
    h1 = h2 ∧ p1 = p2 := by
  rw [(construct_connect _ _ _ _ _ c1).2, (construct_connect _ _ _ _ _ c2).2] at h
  exact endpoint_inj _ _ _ _ z1 z2 (List.cons.inj h).1

/-- C81 is false for host names with a NUL: everything from there on, the port included, is
dropped, so the client connects to another endpoint than it was given. -/
theorem C81_endpoint_nul_violated (loaded : Bool) (host rest : Bytes) (port : UInt16)
    (mode : VerifyMode) (env : TlsEnv) (h0 : 0 ∉ host) (calls : List TlsCall)
    (h : construct loaded (host ++ 0 :: rest) port mode env = (.ok (), calls)) :
    endpoints calls = [host] := by
  rw [construct_endpoints h, hostPort_eq, List.append_assoc, List.cons_append, terminated_nul h0]

/-! ## C82 -/

/-- Neither the expected name nor the server name is ever set. -/
theorem construct_names (loaded : Bool) (host : Bytes) (port : UInt16) (mode : VerifyMode)
    (env : TlsEnv) (name : Bytes) :
    .setExpectedHost name ∉ (construct loaded host port mode env).2 ∧
      .setServerName name ∉ (construct loaded host port mode env).2 := by
  obtain ⟨mid, h1, -, h2, -⟩ := connectBody_calls loaded host port mode env.toTlsOutcome
  have h3 := h2 name
  unfold construct
  split
  · simp
  · split
    · simp
    · rcases hb : connectBody loaded host port mode env.toTlsOutcome with ⟨_ | _ | _ | _, cs⟩ <;>
        rw [hb] at h1 <;> simp only at h1 <;> subst h1 <;> cases loaded <;> simp [h3]

/-- C82, the part that holds: if a client asked to verify the server is connected, the certificate
chain is trusted. Missing: the host name, see below. -/
theorem C82_trusted_partial (loaded : Bool) (host : Bytes) (port : UInt16) (env : TlsEnv)
    (calls : List TlsCall) (peer : Peer) (ha : Answers env calls peer)
    (h : construct loaded host port .verifyServerCert env = (.ok (), calls)) :
    peer.trusted = true := by
  obtain ⟨-, -, h1, -⟩ := construct_ok h
  exact (ha.1 (((C64_constructor _ _).1 h1).2.2.2.2.2.1 rfl)).1

/-- C82 is false of the code: a server with a trusted certificate for any other names is accepted.
Whatever the names, construction succeeds as soon as the other steps do. -/
theorem C82_host_name_violated (loaded : Bool) (host : Bytes) (port : UInt16) (mode : VerifyMode)
    (env : TlsEnv) (peer : Peer) (ht : peer.trusted = true)
    (ha : Answers env (construct loaded host port mode env).2 peer)
    (hs : env.ctxOk = true ∧ env.bioOk = true ∧ env.hasSsl = true ∧ env.setAlpn = 0 ∧
      env.setVerifyPaths = 1 ∧ 0 < env.connect ∧ 0 < env.handshake ∧
      env.alpnSelected = ascii "h2") :
    (construct loaded host port mode env).1 = .ok () := by
  obtain ⟨h1, h2, h3, h4, h5, h6, h7, h8⟩ := hs
  have hv : env.verifyResult = 0 := by
    refine ha.2 ⟨ht, fun name hm => ?_⟩
    exact absurd hm (construct_names loaded host port mode env name).1
  have hc : connectTls mode env.toTlsOutcome = .ok () :=
    (C64_constructor _ _).2 ⟨h3, h4, h5, h6, h7, fun _ => hv, h8⟩
  unfold construct
  rw [if_neg (by simp [h1]), if_neg (by simp [h2])]
  have hr := connectBody_result loaded host port mode env.toTlsOutcome
  rw [hc] at hr
  rcases hb : connectBody loaded host port mode env.toTlsOutcome with ⟨_ | _ | _ | _, cs⟩ <;>
    rw [hb] at hr
  all_goals first | rfl | cases hr

/-- C82. RFC 7540 9.2 asks for the server name indication; no run of the constructor sets one. -/
theorem C82_server_name_violated (loaded : Bool) (host name : Bytes) (port : UInt16)
    (mode : VerifyMode) (env : TlsEnv) :
    .setServerName name ∉ (construct loaded host port mode env).2 := by
  exact (construct_names loaded host port mode env name).2

/-! ## C83 -/

theorem LegalCalls.append {l m n : Live} {as bs : List TlsCall} (h1 : LegalCalls l as m)
    (h2 : LegalCalls m bs n) : LegalCalls l (as ++ bs) n := by
  induction h1 with
  | nil => exact h2
  | cons l m n c cs h _ ih => exact .cons _ _ _ _ _ h (ih h2)

theorem legal_uses {cs : List TlsCall}
    (h : ∀ c ∈ cs, c.UsesBio ∨ c = .setVerifyPaths ∨ c = .libraryInit) :
    LegalCalls ⟨true, true⟩ cs ⟨true, true⟩ := by
  induction cs with
  | nil => exact .nil _
  | cons c cs ih =>
      refine .cons _ _ _ _ _ ?_ (ih fun x hx => h x (by simp [hx]))
      rcases h c (by simp) with h | rfl | rfl
      · exact .useBio c h
      · exact .useCtx true
      · exact .init _

theorem legal_body (loaded : Bool) (host : Bytes) (port : UInt16) (mode : VerifyMode)
    (o : TlsOutcome) :
    LegalCalls ⟨true, true⟩ (connectBody loaded host port mode o).2 ⟨true, true⟩ := by
  obtain ⟨mid, h1, h2, -, -⟩ := connectBody_calls loaded host port mode o
  rw [h1]
  refine legal_uses fun c hc => ?_
  rw [List.mem_append] at hc
  rcases hc with hc | hc
  · cases loaded
    · simp only [Bool.false_eq_true, if_false, List.mem_singleton] at hc
      exact Or.inr (Or.inr hc)
    · cases hc
  · rcases h2 c hc with h | h
    · exact Or.inl h
    · exact Or.inr (Or.inl h)

/-- C83. A client owns its OpenSSL objects: whatever step of the construction fails, and whatever is
read and written otherwise, every call is made on live objects, and each object created is freed
exactly once, the BIO before the context. -/
theorem C83_ownership (loaded : Bool) (host : Bytes) (port : UInt16) (mode : VerifyMode) (env : TlsEnv)
    (uses : List Bool) :
    LegalCalls ⟨false, false⟩ (clientCalls loaded host port mode env uses) ⟨false, false⟩ := by
  have hn : ∀ cs, LegalCalls ⟨true, true⟩ cs ⟨true, true⟩ →
      LegalCalls ⟨false, false⟩ ([.ctxNew true, .bioNew true] ++ cs) ⟨true, true⟩ :=
    fun cs h => .cons _ _ _ _ _ .ctxNew (.cons _ _ _ _ _ .bioNew h)
  have hf : LegalCalls ⟨true, true⟩ [.bioFree, .ctxFree] ⟨false, false⟩ :=
    .cons _ _ _ _ _ .bioFree (.cons _ _ _ _ _ .ctxFree (.nil _))
  have hb := legal_body loaded host port mode env.toTlsOutcome
  unfold clientCalls construct
  split
  · rename_i h1
    split at h1
    · cases h1
    · split at h1
      · cases h1
      · rcases hx : connectBody loaded host port mode env.toTlsOutcome with ⟨_ | _ | _ | _, cs⟩ <;>
          rw [hx] at h1 hb <;> simp only at h1
        · obtain rfl := (Prod.mk.inj h1).2
          refine ((hn _ hb).append (legal_uses fun c hc => ?_)).append hf
          obtain ⟨r, -, rfl⟩ := List.mem_map.1 hc
          cases r <;> exact Or.inl trivial
        · cases h1
        · cases h1
        · cases h1
  · rename_i h0 h1
    split at h1
    · obtain rfl := (Prod.mk.inj h1).2
      exact .cons _ _ _ _ _ .ctxFailed (.nil _)
    · split at h1
      · obtain rfl := (Prod.mk.inj h1).2
        exact .cons _ _ _ _ _ .ctxNew (.cons _ _ _ _ _ .bioFailed (.cons _ _ _ _ _ .ctxFree (.nil _)))
      · rcases hx : connectBody loaded host port mode env.toTlsOutcome with ⟨_ | _ | _ | _, cs⟩ <;>
          rw [hx] at h1 hb <;> simp only at h1
        · exact (h0 (Prod.mk.inj h1).1.symm).elim
        all_goals
          obtain rfl := (Prod.mk.inj h1).2
          exact (hn _ hb).append hf

/-- C83. The same for any sequence of clients in a process. -/
theorem C83_process (loaded : Bool) (runs : List ClientRun) :
    LegalCalls ⟨false, false⟩ (processCalls loaded runs) ⟨false, false⟩ := by
  induction runs generalizing loaded with
  | nil => exact .nil _
  | cons r rs ih => exact (C83_ownership loaded r.host r.port r.mode r.env r.uses).append (ih _)

/-- A client either gives up before the library is initialised, or its calls start like this. -/
theorem clientCalls_start (loaded : Bool) (r : ClientRun) :
    (loadedAfter loaded r.env = loaded ∧
      (clientCalls loaded r.host r.port r.mode r.env r.uses = [.ctxNew false] ∨
       clientCalls loaded r.host r.port r.mode r.env r.uses =
        [.ctxNew true, .bioNew false, .ctxFree])) ∨
    (loadedAfter loaded r.env = true ∧ ∃ tail, .libraryInit ∉ tail ∧
      clientCalls loaded r.host r.port r.mode r.env r.uses =
        [.ctxNew true, .bioNew true] ++ (if loaded then [] else [.libraryInit]) ++ tail) := by
  obtain ⟨host, port, mode, env, uses⟩ := r
  simp only
  by_cases h1 : env.ctxOk = false
  · left
    unfold loadedAfter clientCalls construct
    rw [if_pos h1, h1]
    simp
  by_cases h2 : env.bioOk = false
  · left
    unfold loadedAfter clientCalls construct
    rw [if_neg h1, if_pos h2, h2]
    simp
  right
  obtain ⟨mid, b1, b2, -, -⟩ := connectBody_calls loaded host port mode env.toTlsOutcome
  have hm : .libraryInit ∉ mid := fun h => by
    rcases b2 _ h with h | h
    · exact h
    · cases h
  refine ⟨by unfold loadedAfter; simp at h1 h2; simp [h1, h2], ?_⟩
  unfold clientCalls construct
  rw [if_neg h1, if_neg h2]
  rcases hx : connectBody loaded host port mode env.toTlsOutcome with ⟨_ | _ | _ | _, cs⟩ <;>
    rw [hx] at b1 <;> simp only at b1 <;> subst b1
  · refine ⟨mid ++ useCalls uses ++ [.bioFree, .ctxFree], ?_, by simp only [List.append_assoc]⟩
    simp only [List.mem_append, not_or]
    refine ⟨⟨hm, ?_⟩, by simp⟩
    intro h
    obtain ⟨x, -, hx⟩ := List.mem_map.1 h
    cases x <;> cases hx
  all_goals
    refine ⟨mid ++ [.bioFree, .ctxFree], ?_, by simp only [List.append_assoc]⟩
    simp only [List.mem_append, not_or]
    exact ⟨hm, by simp⟩

/-- C83. The library is initialised at most once in a process. -/
theorem C83_init_once (runs : List ClientRun) :
    (processCalls false runs).count .libraryInit ≤ 1 := by
  have h1 : ∀ runs, .libraryInit ∉ processCalls true runs := by
    intro runs
    induction runs with
    | nil => simp [processCalls]
    | cons r rs ih =>
        unfold processCalls
        rw [List.mem_append]
        have hl : loadedAfter true r.env = true := rfl
        rw [hl]
        rintro (h | h)
        · rcases clientCalls_start true r with ⟨-, e | e⟩ | ⟨-, tail, ht, e⟩ <;> rw [e] at h
          · simp at h
          · simp at h
          · simp only [if_true, List.append_nil, List.mem_append] at h
            exact h.elim (by simp) ht
        · exact ih h
  induction runs with
  | nil => simp [processCalls]
  | cons r rs ih =>
      unfold processCalls
      rw [List.count_append]
      rcases clientCalls_start false r with ⟨hl, e | e⟩ | ⟨hl, tail, ht, e⟩ <;> rw [e, hl]
      · simpa using ih
      · simpa using ih
      · rw [List.count_eq_zero_of_not_mem (h1 rs)]
        simp [List.count_eq_zero_of_not_mem ht]

/-- C83. Every connection is attempted after the library was initialised. -/
theorem C83_init_before_connect (runs : List ClientRun) (before after : List TlsCall)
    (h : processCalls false runs = before ++ .doConnect :: after) : .libraryInit ∈ before := by
  induction runs generalizing before with
  | nil => simp [processCalls] at h
  | cons r rs ih =>
      unfold processCalls at h
      rcases clientCalls_start false r with ⟨hl, e | e⟩ | ⟨hl, tail, ht, e⟩ <;> rw [e] at h
      · rw [hl] at h
        match before, h with
        | [], h => cases (List.cons.inj h).1
        | a :: before, h => exact List.mem_cons_of_mem _ (ih before (List.cons.inj h).2)
      · rw [hl] at h
        match before, h with
        | [], h => cases (List.cons.inj h).1
        | [a], h => cases (List.cons.inj (List.cons.inj h).2).1
        | [a, b], h => cases (List.cons.inj (List.cons.inj (List.cons.inj h).2).2).1
        | a :: b :: c :: before, h =>
            exact List.mem_cons_of_mem _ (List.mem_cons_of_mem _ (List.mem_cons_of_mem _
              (ih before (List.cons.inj (List.cons.inj (List.cons.inj h).2).2).2)))
      · match before, h with
        | [], h => cases (List.cons.inj h).1
        | [a], h => cases (List.cons.inj (List.cons.inj h).2).1
        | [a, b], h => cases (List.cons.inj (List.cons.inj (List.cons.inj h).2).2).1
        | a :: b :: c :: before, h =>
            have := (List.cons.inj (List.cons.inj (List.cons.inj h).2).2).1
            simp [← this]

/-- C83. But the first context is created before that: OpenSSL before 1.1 requires the opposite. -/
theorem C83_init_first_violated (r : ClientRun) (runs : List ClientRun) :
    ∃ ok rest, processCalls false (r :: runs) = .ctxNew ok :: rest := by
  unfold processCalls
  rcases clientCalls_start false r with ⟨-, e | e⟩ | ⟨-, tail, -, e⟩ <;> rw [e]
  · exact ⟨_, _, rfl⟩
  · exact ⟨_, _, rfl⟩
  · exact ⟨_, _, rfl⟩

/-- An environment in which everything works. -/
def goodEnv : TlsEnv := ⟨⟨true, 0, 1, 1, 1, 0, ascii "h2"⟩, true, true⟩

example : construct false (ascii "example.org") 443 .verifyServerCert goodEnv =
    (.ok (), [.ctxNew true, .bioNew true, .libraryInit, .setConnHostname (ascii "example.org:443"),
      .getSsl, .setAutoRetry, .setAlpn [2, 0x68, 0x32], .setVerifyPaths, .doConnect, .doHandshake,
      .getVerifyResult, .getAlpn]) := by decide +kernel

/-- A server with a trusted certificate for another name. -/
example : Answers goodEnv (construct false (ascii "example.org") 443 .verifyServerCert goodEnv).2
    ⟨[ascii "evil.example"], true⟩ :=
  ⟨fun _ => ⟨rfl, fun name h => absurd h
    (construct_names false (ascii "example.org") 443 .verifyServerCert goodEnv name).1⟩, fun _ => rfl⟩

/-- A failed handshake: both objects are freed. -/
example : clientCalls true (ascii "a") 1 .verifyNone ⟨⟨true, 0, 1, 1, 0, 0, []⟩, true, true⟩ [] =
    [.ctxNew true, .bioNew true, .setConnHostname (ascii "a:1"), .getSsl, .setAutoRetry,
      .setAlpn [2, 0x68, 0x32], .setVerifyPaths, .doConnect, .doHandshake, .bioFree, .ctxFree] := by
  decide +kernel

example : (construct true (ascii "a" ++ 0 :: ascii "b") 443 .verifyNone goodEnv).1 = .ok () := by
  decide +kernel

end Mh2c
