/-
Property C146: programs and sequences of calls.
-/
import Verif.Props.Live
import Verif.Props.AnyProgram
import Verif.Props.History

namespace Mh2c

/-- A program made from a sequence of calls: it catches every exception, and does not look at what it receives. -/
def Prog.ofCalls : List Op → Prog
  | [] => .done
  | .sendPreface :: ops => .preface fun _ => ofCalls ops
  | .sendRaw data :: ops => .sendRaw data fun _ => ofCalls ops
  | .receiveRaw n :: ops => .receiveRaw n fun _ => ofCalls ops
  | .sendFrame f :: ops => .sendFrame f fun _ => ofCalls ops
  | .receiveFrame :: ops => .receiveFrame fun _ => ofCalls ops
  | .updateRequestBlock b :: ops => .report b fun _ => ofCalls ops
  | .updateRequestSize n :: ops => .setSize n fun _ => ofCalls ops

theorem ofCalls_run [Platform] {c c' : Client} {ops : List Op} (h : History c ops c') :
    (Prog.ofCalls ops).run c = (.ok (), c') := by
  have step : ∀ {α : Type} {x : Res α × Client} {r : Res Unit} {c1 : Client} {y : Res Unit × Client}
      {k : Except Exc α → Client → Res Unit × Client}, r.Safe → x.2 = c1 →
      r = (do let _ ← x.1; return ()) → (∀ o, k o c1 = y) → goOn x k = y := by
    intro α x r c1 y k hs hc hr hk
    rcases x with ⟨a | e | u | _, c2⟩
    · subst hc; exact hk _
    · subst hc; exact hk _
    · subst hr; exact absurd hs (by simp [Res.Safe, Bind.bind, Res.bind])
    · subst hr; exact absurd hs (by simp [Res.Safe, Bind.bind, Res.bind])
  have unit : ∀ r : Res Unit, r = (do let _ ← r; return ()) := by
    intro r
    cases r <;> rfl
  induction h with
  | nil c => rfl
  | cons c op ops c' hs h ih =>
      cases op with
      | receiveRaw n => exact step hs rfl rfl fun _ => ih
      | receiveFrame => exact step hs rfl rfl fun _ => ih
      | sendPreface => exact step hs rfl (unit _) fun _ => ih
      | sendRaw data => exact step hs rfl (unit _) fun _ => ih
      | sendFrame f => exact step hs rfl (unit _) fun _ => ih
      | updateRequestBlock b => exact step hs rfl (unit _) fun _ => ih
      | updateRequestSize n => exact step hs rfl (unit _) fun _ => ih

/-- The calls that follow one that returned or threw. -/
def callsAfter {α : Type} (x : Res α × Client) (k : Except Exc α → Client → List Op) : List Op :=
  match x with
  | (.ok a, c) => k (.ok a) c
  | (.throw e, c) => k (.error e) c
  | _ => []

/-- The calls that a program makes, with their arguments, in order. -/
def Prog.calls [Platform] : Prog → Client → List Op
  | .done, _ => []
  | .preface k, c => .sendPreface :: callsAfter c.sendConnectionPreface fun o => (k o).calls
  | .sendRaw data k, c => .sendRaw data :: callsAfter (c.sendRawData data) fun o => (k o).calls
  | .sendFrame f k, c => .sendFrame f :: callsAfter (c.sendFrame f) fun o => (k o).calls
  | .receiveRaw n k, c => .receiveRaw n :: callsAfter (c.receiveRawData n) fun o => (k o).calls
  | .receiveFrame k, c => .receiveFrame :: callsAfter c.receiveFrame fun o => (k o).calls
  | .report b k, c => .updateRequestBlock b :: callsAfter (c.updateRequestDynamicTable b) fun o => (k o).calls
  | .setSize n k, c => .updateRequestSize n :: callsAfter (c.updateRequestTableSize n) fun o => (k o).calls
  | .own k, c => (k c.requestTable).calls c
  | .throws _, _ => []

/-- C146. The calls that a program makes, as a sequence of calls fixed beforehand, bring the client to the state that
the program brings it to. -/
theorem C146_calls [Platform] (p : Prog) (c : Client) (hs : (p.run c).1.Safe) :
    History c (p.calls c) (p.run c).2 := by
  have step : ∀ {α : Type} (op : Op) {c : Client} {x : Res α × Client}
      {k : Except Exc α → Client → Res Unit × Client} {l : Except Exc α → Client → List Op},
      (op.run c).2 = x.2 → (op.run c).1 = (do let _ ← x.1; return ()) → (goOn x k).1.Safe →
      (∀ o c1, (k o c1).1.Safe → History c1 (l o c1) (k o c1).2) →
      History c (op :: callsAfter x l) (goOn x k).2 := by
    intro α op c x k l h2 h1 hs hk
    rcases x with ⟨a | e | u | _, c1⟩
    · refine .cons _ _ _ _ (by rw [h1]; simp [Res.Safe, Bind.bind, Res.bind]) ?_
      rw [h2]; exact hk _ _ hs
    · refine .cons _ _ _ _ (by rw [h1]; simp [Res.Safe, Bind.bind, Res.bind]) ?_
      rw [h2]; exact hk _ _ hs
    · exact absurd hs (by simp [goOn, Res.Safe])
    · exact absurd hs (by simp [goOn, Res.Safe])
  have unit : ∀ r : Res Unit, r = (do let _ ← r; return ()) := by
    intro r
    cases r <;> rfl
  induction p generalizing c with
  | done => exact .nil _
  | throws e => exact .nil _
  | preface k ih => exact step .sendPreface rfl (unit _) hs ih
  | sendRaw data k ih => exact step (.sendRaw data) rfl (unit _) hs ih
  | sendFrame f k ih => exact step (.sendFrame f) rfl (unit _) hs ih
  | receiveRaw n k ih => exact step (.receiveRaw n) rfl rfl hs ih
  | receiveFrame k ih => exact step .receiveFrame rfl rfl hs ih
  | report b k ih => exact step (.updateRequestBlock b) rfl (unit _) hs ih
  | setSize n k ih => exact step (.updateRequestSize n) rfl (unit _) hs ih
  | own k ih => exact ih _ _ hs

/-- C146, for programs that end in any way, undefined behaviour included: the calls that a program makes, made one
after the other whatever they return, leave the client as the program does. So the account of C89 of what each
call has sent is one of the program, see `C146_sent`. -/
theorem C146_accounts [Platform] (p : Prog) (c : Client) : (runCalls c (p.calls c)).2 = (p.run c).2 := by
  have step : ∀ {α : Type} (op : Op) {c : Client} {x : Res α × Client}
      {k : Except Exc α → Client → Res Unit × Client} {l : Except Exc α → Client → List Op},
      (op.call c).2 = x.2 → (∀ o c1, (runCalls c1 (l o c1)).2 = (k o c1).2) →
      (runCalls c (op :: callsAfter x l)).2 = (goOn x k).2 := by
    intro α op c x k l h2 hk
    show (runCalls (op.call c).2 _).2 = _
    rw [h2]
    rcases x with ⟨a | e | u | _, c1⟩
    · exact hk _ _
    · exact hk _ _
    · rfl
    · rfl
  induction p generalizing c with
  | done => rfl
  | throws e => rfl
  | preface k ih => exact step .sendPreface rfl ih
  | sendRaw data k ih => exact step (.sendRaw data) rfl ih
  | sendFrame f k ih => exact step (.sendFrame f) rfl ih
  | receiveRaw n k ih => exact step (.receiveRaw n) rfl ih
  | receiveFrame k ih => exact step .receiveFrame rfl ih
  | report b k ih => exact step (.updateRequestBlock b) rfl ih
  | setSize n k ih => exact step (.updateRequestSize n) rfl ih
  | own k ih => exact ih _ _

/-- C146, used: whatever a program has put on the wire is what its calls have, one after the other: all they were
asked for if they returned, a part from the beginning if not. -/
theorem C146_sent [Platform] (p : Prog) (c : Client) :
    ∃ pieces, (p.run c).2.conn.sent = c.conn.sent ++ pieces.flatten ∧
      List.Forall₂ SentBy (runCalls c (p.calls c)).1 pieces := by
  rw [← C146_accounts]
  exact C89_sent c (p.calls c)

/-- C146. A program that decides by everything it has received and caught what to call next brings a client to no
other states than fixed sequences of calls do: `c'` can be reached from `c` by a program that returns or throws if
and only if it can be reached by a sequence of calls. -/
theorem C146_reachable [Platform] (c c' : Client) :
    (∃ (p : Prog) (r : Res Unit), r.Safe ∧ p.run c = (r, c')) ↔ ∃ ops, History c ops c' := by
  constructor
  · rintro ⟨p, r, hs, h⟩
    have := C146_calls p c (by rw [h]; exact hs)
    rw [h] at this
    exact ⟨_, this⟩
  · rintro ⟨ops, h⟩
    exact ⟨.ofCalls ops, .ok (), by simp [Res.Safe], ofCalls_run h⟩

/-- C146, with a server that answers what it is sent: a program that ends has brought the client to the state that the
calls it makes reach with a server that sends the same octets at once. -/
theorem C146_answering [Platform] (srv : Server) (p : Prog) (n : Nat) (c c' : Client) (r : Res Unit) (said : Bytes)
    (hs : r.Safe) (h : p.live srv n c = .ended r c' said) :
    ∃ reads, let c0 := c.fed (c.conn.incoming ++ said) reads
      History c0 (p.calls c0) (c'.fed c'.conn.incoming []) := by
  obtain ⟨reads, hr⟩ := C144_ended srv p n c c' r said h
  have hr := hr [] []
  rw [List.append_nil, List.append_nil, List.append_nil] at hr
  refine ⟨reads, ?_⟩
  have := C146_calls p (c.fed (c.conn.incoming ++ said) reads) (by rw [hr]; exact hs)
  rw [hr] at this
  exact this

attribute [local instance] x86 in
/-- Non-vacuity of `C146_answering`: a program that ends because the server answers. Without an answer it would
wait. -/
example : let c := Client.new ⟨[], [], [5, 9, 9], [100, 100, 100]⟩
    (asksOnce.live acknowledges 0 c).seen.1 = some (.ok ()) ∧
    (asksOnce.live (fun _ _ => []) 0 c).seen.2.1 = some .frame := by
  decide +kernel

attribute [local instance] x86 in
/-- Non-vacuity: `relayOnce` receives DATA and sends it on; so do the calls it makes. -/
example : let c := Client.new ⟨[0, 0, 2, 0, 1, 0, 0, 0, 1, 104, 105], [], [9, 9, 9], [100, 100, 100]⟩
    relayOnce.run c = (Prog.ofCalls [.sendPreface, .receiveFrame, .sendRaw [104, 105]]).run c ∧
    (relayOnce.calls c).length = 3 ∧ (relayOnce.run c).1 = .ok () ∧ (relayOnce.run c).2 ≠ c := by
  decide +kernel

end Mh2c
