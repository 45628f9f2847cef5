/-
C142: any program that uses a client when memory can run out.
-/
import Verif.Spec.AnyProgram
import Verif.Props.MemorySample

namespace Mh2c

open Mh2c.Sample (receiveFrameMem_rest)

/-- From `c` to `c'` octets were sent and received. -/
structure Part (c c' : Client) : Prop where
  sent : c.conn.sent <+: c'.conn.sent
  received : c'.conn.incoming <:+ c.conn.incoming

theorem Part.refl (c : Client) : Part c c := ⟨List.prefix_refl _, List.suffix_refl _⟩

theorem Part.trans {a b c : Client} (h1 : Part a b) (h2 : Part b c) : Part a c :=
  ⟨h1.sent.trans h2.sent, h2.received.trans h1.received⟩

theorem part_sendRaw (c : Client) (data : Bytes) : Part c (c.sendRawData data).2 := by
  obtain ⟨w, p, -, h, -⟩ := Sample.sendRaw_cases c data
  rw [h]
  exact ⟨List.prefix_append _ _, List.suffix_refl _⟩

theorem part_receiveRaw (c : Client) (n : Nat) : Part c (c.receiveRawData n).2 := by
  unfold Client.receiveRawData Conn.read
  obtain ⟨reads, -, ⟨-, -, h⟩ | ⟨k, -, -, h⟩⟩ := readLoop_spec c.conn.reads c.conn.incoming n
  all_goals
    rw [h]
    exact ⟨List.prefix_refl _, List.drop_suffix _ _⟩

theorem processFrame_conn [Platform] (c : Client) (fh : FrameHeader) (raw : Bytes) :
    (c.processFrame fh raw).2.conn = c.conn := by
  rw [processFrame_eq]

theorem processFrameMem_conn [Platform] (c : Client) (fh : FrameHeader) (raw : Bytes) (m : Memory) :
    (c.processFrameMem fh raw m).2.1.conn = c.conn := by
  unfold Client.processFrameMem
  rcases buildFrameMem fh raw c.responseTable m with ⟨(f | _ | _ | _) | _, m1⟩
  · simp only
    rcases updateFrameMem f c.responseTable m1 with ⟨(_ | _ | _ | _) | _, t, m2⟩ <;> rfl
  all_goals rfl

theorem part_of_conn {a b b' : Client} (h : Part a b) (e : b'.conn = b.conn) : Part a b' :=
  ⟨by rw [e]; exact h.sent, by rw [e]; exact h.received⟩

theorem part_receive [Platform] (c : Client) : Part c c.receiveFrame.2 := by
  unfold Client.receiveFrame
  have h1 := part_receiveRaw c 9
  rcases hc : c.receiveRawData 9 with ⟨raw | _ | _ | _, c1⟩ <;> rw [hc] at h1
  · simp only at h1 ⊢
    cases buildFrameHeader raw with
    | ok fh =>
        simp only
        split
        · have h2 := part_receiveRaw c1 fh.length.toNat
          rcases hd : c1.receiveRawData fh.length.toNat with ⟨raw' | _ | _ | _, c2⟩ <;> rw [hd] at h2
          · exact part_of_conn (h1.trans h2) (processFrame_conn _ _ _)
          all_goals exact h1.trans h2
        · exact part_of_conn h1 (processFrame_conn _ _ _)
    | throw e => exact h1
    | ub k => exact h1
    | diverge => exact h1
  all_goals exact h1

theorem part_receiveMem [Platform] (c : Client) (m : Memory) :
    Part c (c.receiveFrameMem m).2.1 ∧ Part (c.receiveFrameMem m).2.1 c.receiveFrame.2 := by
  have h0 := part_receive c
  unfold Client.receiveFrameMem
  by_cases hm : m.next.1 = true
  · rw [if_pos hm]
    unfold Client.receiveFrame
    have h1 := part_receiveRaw c 9
    rcases hc : c.receiveRawData 9 with ⟨raw | e | _ | _, c1⟩ <;> rw [hc] at h1
    · simp only at h1 ⊢
      cases buildFrameHeader raw with
      | ok fh =>
          simp only
          by_cases h0 : fh.length.toNat > 0
          · rw [if_pos h0, if_pos h0]
            have h2 := part_receiveRaw c1 fh.length.toNat
            by_cases hm2 : m.next.2.next.1 = true
            · rw [if_pos hm2]
              rcases hd : c1.receiveRawData fh.length.toNat with ⟨raw' | _ | _ | _, c2⟩ <;> rw [hd] at h2
              · refine ⟨part_of_conn (h1.trans h2) (processFrameMem_conn _ _ _ _),
                  part_of_conn (b := (c2.processFrameMem fh raw' m.next.2.next.2).2.1) (Part.refl _) ?_⟩
                rw [processFrame_conn, processFrameMem_conn]
              all_goals exact ⟨h1.trans h2, Part.refl _⟩
            · rw [if_neg hm2]
              refine ⟨h1, ?_⟩
              rcases hd : c1.receiveRawData fh.length.toNat with ⟨raw' | _ | _ | _, c2⟩ <;> rw [hd] at h2
              · exact part_of_conn h2 (processFrame_conn _ _ _)
              all_goals exact h2
          · rw [if_neg h0, if_neg h0]
            refine ⟨part_of_conn h1 (processFrameMem_conn _ _ _ _),
              part_of_conn (b := (c1.processFrameMem fh [] m.next.2).2.1) (Part.refl _) ?_⟩
            rw [processFrame_conn, processFrameMem_conn]
      | throw e => exact ⟨h1, Part.refl _⟩
      | ub k => exact ⟨h1, Part.refl _⟩
      | diverge => exact ⟨h1, Part.refl _⟩
    all_goals exact ⟨h1, Part.refl _⟩
  · rw [if_neg hm]
    exact ⟨Part.refl _, h0⟩

/-- The call `xm` with memory that can run out follows the call `x`, from the client `c`. -/
structure CallFollows {α : Type} (c : Client) (x : Res α × Client) (xm : Memory → Ended α × Client × Memory)
    (headers : Prop) : Prop where
  grows : Part c x.2
  same : ∀ m r, (xm m).1 = .res r → x = (r, (xm m).2.1) ∨ r = .ub .nullDeref ∧ headers
  stops : ∀ m, (xm m).1 = .badAlloc →
    Part c (xm m).2.1 ∧ Part (xm m).2.1 x.2
  enough : (xm []).1 = .res x.1 ∧ (xm []).2.2 = []

theorem CallFollows.goOn {α β : Type} {c : Client} {x : Res α × Client}
    {xm : Memory → Ended α × Client × Memory} {k : Except Exc α → Client → Res β × Client}
    {km : Except Exc α → Client → Memory → Ended β × Client × Memory} {h h' : Prop} (hx : CallFollows c x xm h)
    (hh : h → h')
    (hk : ∀ o c', x = (ends o, c') → CallFollows c' (k o c') (km o c') h') :
    CallFollows c (goOn x k) (fun m => goOnMem (xm m) km) h' := by
  have grows : Part x.2 (Mh2c.goOn x k).2 := by
    rcases x with ⟨a | e | u | _, c'⟩
    · exact (hk (.ok a) c' rfl).grows
    · exact (hk (.error e) c' rfl).grows
    all_goals exact Part.refl _
  refine ⟨hx.grows.trans grows, fun m r h => ?_, fun m h => ?_, ?_⟩
  · have h1 := hx.same m
    unfold goOnMem at h ⊢
    rcases hxm : xm m with ⟨(a | e | u | _) | _, c', m'⟩ <;> rw [hxm] at h h1
    · rcases h1 _ rfl with h2 | ⟨h2, -⟩
      · have := (hk (.ok a) c' h2).same m' r h
        rw [h2]; exact this
      · cases h2
    · rcases h1 _ rfl with h2 | ⟨h2, -⟩
      · have := (hk (.error e) c' h2).same m' r h
        rw [h2]; exact this
      · cases h2
    · cases h
      rcases h1 _ rfl with h2 | ⟨h2, h3⟩
      · rw [h2]; exact Or.inl rfl
      · cases h2; exact Or.inr ⟨rfl, hh h3⟩
    · cases h
      rcases h1 _ rfl with h2 | ⟨h2, -⟩
      · rw [h2]; exact Or.inl rfl
      · cases h2
    · cases h
  · have h1 := hx.same m
    have h3 := hx.stops m
    unfold goOnMem at h ⊢
    rcases hxm : xm m with ⟨(a | e | u | _) | _, c', m'⟩ <;> rw [hxm] at h h1 h3
    · rcases h1 _ rfl with h2 | ⟨h2, -⟩
      · have h4 := (hk (.ok a) c' h2).stops m' h
        have h5 := hx.grows
        rw [h2] at h5 ⊢
        exact ⟨h5.trans h4.1, h4.2⟩
      · cases h2
    · rcases h1 _ rfl with h2 | ⟨h2, -⟩
      · have h4 := (hk (.error e) c' h2).stops m' h
        have h5 := hx.grows
        rw [h2] at h5 ⊢
        exact ⟨h5.trans h4.1, h4.2⟩
      · cases h2
    · cases h
    · cases h
    · exact ⟨(h3 rfl).1, (h3 rfl).2.trans grows⟩
  · have h1 := hx.enough
    have h3 := hx.same []
    show (goOnMem (xm []) km).1 = _ ∧ (goOnMem (xm []) km).2.2 = []
    rcases hxm : xm [] with ⟨r, c', m'⟩
    rw [hxm] at h1 h3
    simp only at h1 h3
    obtain ⟨rfl, rfl⟩ := h1
    rcases hxx : x with ⟨a | e | u | _, c2⟩
    · rcases h3 _ rfl with h2 | ⟨h2, -⟩
      · rw [hxx] at h2
        obtain rfl := (Prod.mk.inj h2).2
        exact (hk (.ok a) c2 hxx).enough
      · rw [hxx] at h2; cases h2
    · rcases h3 _ rfl with h2 | ⟨h2, -⟩
      · rw [hxx] at h2
        obtain rfl := (Prod.mk.inj h2).2
        exact (hk (.error e) c2 hxx).enough
      · rw [hxx] at h2; cases h2
    all_goals exact ⟨rfl, rfl⟩

theorem callFollows_op [Platform] {c : Client} {x : Res Unit × Client}
    {xm : Memory → Ended Unit × Client × Memory} (op : Op)
    (hf : op.run c = x) (hfm : ∀ m, op.runMem c m = xm m)
    (hop : (∃ f, op = .sendFrame f) ∨ (∃ data, op = .sendRaw data) ∨ op = .sendPreface ∨
      ∃ n, op = .receiveRaw n)
    (grows : Part c x.2) (hnil : (xm []).2.2 = []) (hne : op ≠ .receiveFrame) :
    CallFollows c x xm False := by
  refine ⟨grows, fun m r h => ?_, fun m h => ?_, ?_, hnil⟩
  · rw [← hfm] at h ⊢
    rw [← hf]
    rcases (C139_same_partial op c).1 m r h with h1 | ⟨h1, -⟩
    · exact Or.inl h1
    · exact absurd h1 hne
  · rw [← hfm] at h ⊢
    rcases C139_send_partial op c m hop h with h1 | ⟨e, h1⟩
    · rw [h1]; exact ⟨Part.refl _, grows⟩
    · rw [← hf, h1] at grows ⊢; exact ⟨grows, Part.refl _⟩
  · rw [← hfm, ← hf]
    exact (C139_same_partial op c).2

theorem callFollows_sendRaw [Platform] (c : Client) (data : Bytes) :
    CallFollows c (c.sendRawData data) (c.sendRawDataMem data) False := by
  refine callFollows_op (.sendRaw data) rfl (fun _ => rfl) (by simp) (part_sendRaw c _) ?_ nofun
  unfold Client.sendRawDataMem
  simp only [raise_nil]

theorem callFollows_preface [Platform] (c : Client) :
    CallFollows c c.sendConnectionPreface c.sendPrefaceMem False := by
  refine callFollows_op .sendPreface rfl (fun _ => rfl) (by simp) (part_sendRaw c _) ?_ nofun
  unfold Client.sendPrefaceMem Client.sendRawDataMem
  simp only [Memory.next, if_true, raise_nil]

theorem callFollows_sendFrame [Platform] (c : Client) (f : Frame) :
    CallFollows c (c.sendFrame f) (c.sendFrameMem f) False := by
  refine callFollows_op (.sendFrame f) rfl (fun _ => rfl) (by simp) ?_ ?_ nofun
  · unfold Client.sendFrame
    cases f.serialize with
    | ok raw => exact part_sendRaw c raw
    | throw e => exact Part.refl _
    | ub k => exact Part.refl _
    | diverge => exact Part.refl _
  · unfold Client.sendFrameMem Client.sendRawDataMem
    simp only [Memory.next, if_true, raise_nil]
    cases f.serialize <;> rfl

theorem callFollows_receiveRaw [Platform] (c : Client) (n : Nat) :
    CallFollows c (c.receiveRawData n) (c.receiveRawDataMem n) False := by
  refine ⟨part_receiveRaw c n, fun m r h => ?_, fun m h => ⟨part_receiveRaw c n, Part.refl _⟩, ?_⟩
  · unfold Client.receiveRawDataMem at h ⊢
    rcases raise_cases (c.receiveRawData n).1 m with h1 | ⟨h1, -⟩
    · cases h1.symm.trans h; exact Or.inl rfl
    · cases h1.symm.trans h
  · unfold Client.receiveRawDataMem
    simp only [raise_nil, and_self]

theorem callFollows_receive [Platform] (c : Client) :
    CallFollows c c.receiveFrame c.receiveFrameMem
      (frameLength c.conn.incoming ≤ c.conn.incoming.length ∧ c.conn.incoming[3]? = some 1) := by
  refine ⟨part_receive c, fun m r h => ?_, fun m _ => part_receiveMem c m, receiveFrameMem_nil c,
    receiveFrameMem_rest c⟩
  rcases receiveFrameMem_cases c m with ⟨r', h1, h2⟩ | ⟨h2, h3, h1⟩ | ⟨h1, -⟩
  · cases h1.symm.trans h; exact Or.inl h2
  · cases h1.symm.trans h; exact Or.inr ⟨rfl, h2, h3⟩
  · cases h1.symm.trans h

theorem callFollows_size (c : Client) (n : Nat) : CallFollows c (c.updateRequestTableSize n)
    (fun m => (.res (c.updateRequestTableSize n).1, (c.updateRequestTableSize n).2, m)) False := by
  refine ⟨?_, fun m r h => ?_, fun m h => ?_, rfl, rfl⟩
  · unfold Client.updateRequestTableSize
    split <;> exact part_of_conn (Part.refl c) rfl
  · cases h; exact Or.inl rfl
  · cases h

theorem callFollows_report (c : Client) (b : HeaderBlock) :
    CallFollows c (c.updateRequestDynamicTable b) (c.updateRequestTableMem b) False := by
  have same : ∀ m r, (c.updateRequestTableMem b m).1 = .res r →
      c.updateRequestDynamicTable b = (r, (c.updateRequestTableMem b m).2.1) := by
    intro m r h
    unfold Client.updateRequestTableMem at h ⊢
    unfold Client.updateRequestDynamicTable
    rcases updateTableMem_cases b c.requestTable m with ⟨r', h1, h2⟩ | ⟨h1, -⟩
    · cases h1.symm.trans h
      rw [h2]
    · cases h1.symm.trans h
  refine ⟨part_of_conn (Part.refl c) rfl, fun m r h => Or.inl (same m r h),
    fun m h => ⟨part_of_conn (Part.refl c) rfl, part_of_conn (Part.refl _) rfl⟩, ?_,
    (updateTableMem_nil b c.requestTable).2⟩
  have h := updateTableMem_nil b c.requestTable
  cases hr : (c.updateRequestTableMem b []).1 with
  | res r => rw [same [] r hr]
  | badAlloc => exact absurd hr h.1

theorem callFollows_prog [Platform] (p : Prog) (c : Client) :
    CallFollows c (p.run c) (p.runMem c) (ReceivesHeaders p c) := by
  have weaken : ∀ {c : Client} {x : Res Unit × Client} {xm : Memory → Ended Unit × Client × Memory}
      {h h' : Prop}, CallFollows c x xm h → (h → h') → CallFollows c x xm h' :=
    fun hx hh => ⟨hx.grows, fun m r h => (hx.same m r h).imp id fun h => ⟨h.1, hh h.2⟩, hx.stops, hx.enough⟩
  induction p generalizing c with
  | done => exact ⟨Part.refl _, fun m r h => by cases h; exact Or.inl rfl, nofun, rfl, rfl⟩
  | throws e => exact ⟨Part.refl _, fun m r h => by cases h; exact Or.inl rfl, nofun, rfl, rfl⟩
  | preface k ih =>
      exact (callFollows_preface c).goOn False.elim fun o c' h => weaken (ih o c') (.preface k c c' o h)
  | sendRaw data k ih =>
      exact (callFollows_sendRaw c data).goOn False.elim fun o c' h =>
        weaken (ih o c') (.sendRaw data k c c' o h)
  | sendFrame f k ih =>
      exact (callFollows_sendFrame c f).goOn False.elim fun o c' h => weaken (ih o c') (.sendFrame f k c c' o h)
  | receiveRaw n k ih =>
      exact (callFollows_receiveRaw c n).goOn False.elim fun o c' h =>
        weaken (ih o c') (.receiveRaw n k c c' o h)
  | receiveFrame k ih =>
      exact (callFollows_receive c).goOn (fun h => .here k c h.1 h.2) fun o c' h =>
        weaken (ih o c') (.receiveFrame k c c' o h)
  | report b k ih =>
      exact (callFollows_report c b).goOn False.elim fun o c' h => weaken (ih o c') (.report b k c c' o h)
  | setSize n k ih =>
      exact (callFollows_size c n).goOn False.elim fun o c' h => weaken (ih o c') (.setSize n k c c' o h)
  | own k ih =>
      have hk := ih c.requestTable c
      refine ⟨hk.grows, fun m r h => ?_, fun m h => ?_, hk.enough⟩
      · unfold Prog.runMem at h ⊢
        by_cases hm : m.next.1 = true
        · rw [if_pos hm] at h ⊢
          exact (hk.same _ r h).imp id fun h => ⟨h.1, .own k c h.2⟩
        · rw [if_neg hm] at h; cases h
      · unfold Prog.runMem at h ⊢
        by_cases hm : m.next.1 = true
        · rw [if_pos hm] at h ⊢
          exact hk.stops _ h
        · rw [if_neg hm]; exact ⟨Part.refl _, hk.grows⟩

/-- C142, the part that holds of runs that do not end with `std::bad_alloc`: such a run ends as it does where
memory never runs out, and leaves the client the same, unless the program receives HEADERS. In particular it
comes to its end only if it has done everything. With enough memory no run ends with `std::bad_alloc`.
Missing: HEADERS, see `C142_headers_violated`. -/
theorem C142_ends_partial [Platform] (p : Prog) (c : Client) :
    (∀ m r c' m', p.runMem c m = (.res r, c', m') → p.run c = (r, c') ∨
      r = .ub .nullDeref ∧ ReceivesHeaders p c) ∧
    (∀ m c' m', p.runMem c m = (.res (.ok ()), c', m') → p.run c = (.ok (), c')) ∧
    (p.runMem c []).1 = .res (p.run c).1 := by
  have key : ∀ m r c' m', p.runMem c m = (.res r, c', m') → p.run c = (r, c') ∨
      r = .ub .nullDeref ∧ ReceivesHeaders p c := by
    intro m r c' m' h
    have := (callFollows_prog p c).same m r (by rw [h])
    rw [h] at this
    exact this
  refine ⟨key, fun m c' m' h => ?_, (callFollows_prog p c).enough.1⟩
  rcases key m _ c' m' h with h1 | ⟨h1, -⟩
  · exact h1
  · cases h1

/-- C142, the part that holds of the other runs: a run that ends with `std::bad_alloc` has sent a beginning of what
it sends where memory never runs out, and nothing else, and has not received more than it receives there. Missing:
that every run that runs out of memory ends so, see `C142_headers_violated`. -/
theorem C142_stops_partial [Platform] (p : Prog) (c c' : Client) (m m' : Memory)
    (h : p.runMem c m = (.badAlloc, c', m')) :
    (c.conn.sent <+: c'.conn.sent ∧ c'.conn.sent <+: (p.run c).2.conn.sent) ∧
      c'.conn.incoming <:+ c.conn.incoming ∧ (p.run c).2.conn.incoming <:+ c'.conn.incoming := by
  have := (callFollows_prog p c).stops m (by rw [h])
  rw [h] at this
  exact ⟨⟨this.1.sent, this.2.sent⟩, this.1.received, this.2.received⟩

/-- A program for the examples: it sends the preface, receives a frame, and sends the octets of its payload if it is
DATA. If the frame cannot be received it catches the exception and sends GOAWAY. -/
def relayOnce : Prog :=
  .preface fun
    | .error e => .throws e
    | .ok () => .own fun _ => .receiveFrame fun
      | .ok (.data d) => .sendRaw d.payload fun _ => .done
      | .ok _ => .throws .runtimeError
      | .error _ => .sendRaw [0, 0, 8, 7, 0, 0, 0, 0, 0, 0, 0, 0, 0, 0, 0, 0, 0] fun _ => .done

/-- C142 is false of the code: for every program that begins by receiving a frame, whatever it does with it, there
is undefined behaviour if memory runs out while a HEADERS frame is decoded, whatever is in it. -/
theorem C142_headers_violated [Platform] (k : Except Exc Frame → Prog) (c : Client) (flags : UInt8) (stream : UInt32)
    (payload rest : Bytes) (hp : payload ≠ []) (hl : payload.length < 2 ^ 24) (hs : stream.toNat < 2 ^ 31)
    (hi : c.conn.incoming = Rfc.frameOctets 1 flags stream.toNat payload ++ rest)
    (hw : Willing c.conn.reads (9 + payload.length)) :
    ∃ m, ((Prog.receiveFrame k).runMem c m).1 = .res (.ub .nullDeref) := by
  refine ⟨[true, true, false], ?_⟩
  have h := C139_headers_violated c flags stream payload rest hp hl hs hi hw
  unfold Prog.runMem
  rcases hc : c.receiveFrameMem [true, true, false] with ⟨r, c', m'⟩
  rw [hc] at h
  simp only at h
  rw [h]
  rfl

attribute [local instance] x86 in
/-- Non-vacuity of `C142_headers_violated`: see `C139_headers_violated`; and with memory the program comes to its
end. -/
example : let c := Client.new ⟨Rfc.frameOctets 1 4 1 [0x88], [], [9, 9, 9], []⟩
    ((Prog.receiveFrame fun _ => .done).run c).1 = .ok () ∧
    ((Prog.receiveFrame fun _ => .done).runMem c [true, true, false]).1 = .res (.ub .nullDeref) := by
  decide +kernel

attribute [local instance] x86 in
/-- Non-vacuity of `C142_ends_partial` and `C142_stops_partial`: a program with memory that runs out before it
receives, while it receives, and not at all. -/
example : let c := Client.new ⟨[0, 0, 2, 0, 1, 0, 0, 0, 1, 104, 105], [], [9, 9, 9], [100, 100, 100]⟩
    ((relayOnce.runMem c [true, false]).1 = .badAlloc ∧
      (relayOnce.runMem c [true, false]).2.1.conn.sent = bstr "PRI * HTTP/2.0\r\n\r\nSM\r\n\r\n") ∧
    ((relayOnce.runMem c [true, true, true, false]).1 = .badAlloc ∧
      (relayOnce.runMem c [true, true, true, false]).2.1.conn.incoming = [104, 105]) ∧
    (relayOnce.runMem c [true, true, true, true, true]).1 = .res (.ok ()) ∧
      (relayOnce.runMem c [true, true, true, true, true]).2.1.conn.sent =
        bstr "PRI * HTTP/2.0\r\n\r\nSM\r\n\r\nhi" := by
  decide +kernel

attribute [local instance] x86 in
/-- The same program when the server has closed the connection: it catches the exception. If memory runs out while the
exception is made, it does not. -/
example : let c := Client.new ⟨[], [], [9], [100, 100, 100]⟩
    (relayOnce.run c).1 = .ok () ∧ (relayOnce.run c).2.conn.sent.length = 24 + 17 ∧
    (relayOnce.runMem c [true, true, true, true]).1 = .res (.ok ()) ∧
    (relayOnce.runMem c [true, true, true, false]).1 = .badAlloc ∧
      (relayOnce.runMem c [true, true, true, false]).2.1.conn.sent.length = 24 := by
  decide +kernel

end Mh2c
