import Verif.Proofs.Bits
import Verif.Model.Sample
import Verif.Model.Accessors
import Verif.Spec.Session

/-! C115: a program behaves the same on every host. -/

namespace Mh2c

/-- Equal, or the first host counts `v[v.size()]` as undefined, the second does not, and the first
outcome is undefined. -/
private def Hosts (p q : Platform) {α : Type} (r r' : Res α) : Prop :=
  r = r' ∨ (p.strictIndex = true ∧ q.strictIndex = false ∧ r.IsUb)

private def HostsS (p q : Platform) {α σ : Type} (r r' : Res α × σ) : Prop :=
  r = r' ∨ (p.strictIndex = true ∧ q.strictIndex = false ∧ r.1.IsUb)

section
variable {p q : Platform} {α β σ τ : Type}

private theorem Hosts.bind {r r' : Res α} {f g : α → Res β} (h : Hosts p q r r')
    (hf : ∀ a, Hosts p q (f a) (g a)) : Hosts p q (r >>= f) (r' >>= g) := by
  rcases h with rfl | ⟨h1, h2, h3⟩
  · cases r with
    | ok a => exact hf a
    | throw e => exact Or.inl rfl
    | ub k => exact Or.inl rfl
    | diverge => exact Or.inl rfl
  · refine Or.inr ⟨h1, h2, ?_⟩
    cases r with
    | ok a => exact absurd h3 (by simp [Res.IsUb])
    | throw e => exact absurd h3 (by simp [Res.IsUb])
    | ub k => exact (by simp [Res.IsUb] : (Res.ub k : Res β).IsUb)
    | diverge => exact absurd h3 (by simp [Res.IsUb])

private theorem Hosts.same {r r' : Res α} (h : r = r') : Hosts p q r r' := Or.inl h

private theorem isUb_cases {r : Res α} (h : r.IsUb) : ∃ k, r = .ub k := by
  cases r with
  | ub k => exact ⟨k, rfl⟩
  | ok a => exact absurd h (by simp [Res.IsUb])
  | throw e => exact absurd h (by simp [Res.IsUb])
  | diverge => exact absurd h (by simp [Res.IsUb])

variable (h : q.strictIndex = true → p.strictIndex = true)
include h

private theorem addressRange_alike (v : Bytes) (i n : Nat) :
    Hosts p q (@addressRange p v i n) (@addressRange q v i n) := by
  unfold addressRange
  cases hp : p.strictIndex <;> cases hq : q.strictIndex
  · exact Or.inl rfl
  · rw [h hq] at hp; cases hp
  · split
    · split
      · exact Or.inr ⟨hp, hq, by simp [Res.IsUb]⟩
      · exact Or.inl (by simp)
    · exact Or.inl rfl
  · exact Or.inl rfl

private theorem string_alike (v : Bytes) :
    Hosts p q (@decodeHeaderString p v) (@decodeHeaderString q v) := by
  unfold decodeHeaderString
  refine .bind (.same rfl) fun a => .bind (.same rfl) fun b => ?_
  dsimp only
  split
  · exact .bind (.same rfl) fun _ => .bind (.same rfl) fun _ =>
      .bind (addressRange_alike h _ _ _) fun _ => .same rfl
  · exact .bind (addressRange_alike h _ _ _) fun _ => .same rfl

private theorem literal_alike (v : Bytes) (x : HeaderPrefix) (g : Header) (n : Nat) :
    Hosts p q (@decodeLiteral p v x g n) (@decodeLiteral q v x g n) := by
  unfold decodeLiteral
  refine .bind (.same rfl) fun a => ?_
  split
  · exact .bind (string_alike h _) fun _ => .bind (.same rfl) fun _ =>
      .bind (string_alike h _) fun _ => .same rfl
  · exact .bind (string_alike h _) fun _ => .same rfl

private theorem header_alike (v : Bytes) (t : DynamicTable) :
    Hosts p q (@decodeHeader p v t) (@decodeHeader q v t) := by
  unfold decodeHeader
  refine .bind (.same rfl) fun a => .bind (.same rfl) fun b => ?_
  split
  · exact .same rfl
  · refine .bind (.same rfl) fun c => ?_
    have rest : ∀ d : Header, Hosts p q
        (if b = .indexed then pure (.ofHeader b d, c.2) else @decodeLiteral p v b d c.2)
        (if b = .indexed then pure (.ofHeader b d, c.2) else @decodeLiteral q v b d c.2) := by
      intro d
      split
      · exact .same rfl
      · exact literal_alike h _ _ _ _
    dsimp only
    split
    · exact .bind (.same rfl) rest
    · exact .bind (.same rfl) rest

private theorem headerBlock_alike (v : Bytes) (t : DynamicTable) :
    Hosts p q (@decodeHeaderBlock p v t) (@decodeHeaderBlock q v t) := by
  generalize hn : v.length = n
  induction n using Nat.strong_induction_on generalizing v with
  | _ n ih =>
      rw [@decodeHeaderBlock.eq_1 p, @decodeHeaderBlock.eq_1 q]
      split
      · rcases header_alike h v t with e | ⟨h1, h2, h3⟩
        · rw [e]
          cases @decodeHeader q v t with
          | throw e => exact .same rfl
          | ub k => exact .same rfl
          | diverge => exact .same rfl
          | ok x =>
              obtain ⟨entry, m⟩ := x
              simp only
              split
              · exact .same rfl
              · split
                · exact .bind (ih _ (by simp; omega) _ rfl) fun _ => .same rfl
                · exact .same rfl
        · obtain ⟨k, e⟩ := isUb_cases h3
          rw [e]
          exact Or.inr ⟨h1, h2, by simp [Res.IsUb]⟩
      · exact .same rfl

private theorem build_alike (fh : FrameHeader) (raw : Bytes) (t : DynamicTable) :
    Hosts p q (@buildFrame p fh raw t) (@buildFrame q fh raw t) := by
  unfold buildFrame
  split <;> try exact .same rfl
  · unfold buildHeadersFrame
    have : Hosts p q (@HeadersFrame.ofRaw p fh raw t) (@HeadersFrame.ofRaw q fh raw t) := by
      unfold HeadersFrame.ofRaw
      exact .bind (.same rfl) fun _ => .bind (.same rfl) fun _ =>
        .bind (headerBlock_alike h _ _) fun _ => .same rfl
    rcases this with e | ⟨h1, h2, h3⟩
    · rw [e]; exact .same rfl
    · obtain ⟨k, e⟩ := isUb_cases h3
      rw [e]
      exact Or.inr ⟨h1, h2, by simp [Res.IsUb]⟩
  · refine .bind ?_ fun _ => .same rfl
    unfold PushPromiseFrame.ofRaw
    exact .bind (.same rfl) fun _ => .bind (.same rfl) fun _ => .bind (.same rfl) fun _ =>
      .bind (.same rfl) fun _ => .bind (headerBlock_alike h _ _) fun _ => .same rfl
  · refine .bind ?_ fun _ => .same rfl
    unfold ContinuationFrame.ofRaw
    exact .bind (headerBlock_alike h _ _) fun _ => .same rfl

private theorem process_alike (c : Client) (fh : FrameHeader) (raw : Bytes) :
    HostsS p q (@Client.processFrame p c fh raw) (@Client.processFrame q c fh raw) := by
  unfold Client.processFrame
  rcases build_alike h fh raw c.responseTable with e | ⟨h1, h2, h3⟩
  · rw [e]; exact Or.inl rfl
  · obtain ⟨k, e⟩ := isUb_cases h3
    rw [e]
    exact Or.inr ⟨h1, h2, by simp [Res.IsUb]⟩

private theorem receive_alike (c : Client) :
    HostsS p q (@Client.receiveFrame p c) (@Client.receiveFrame q c) := by
  unfold Client.receiveFrame
  split <;> try exact Or.inl rfl
  split <;> try exact Or.inl rfl
  split
  · split <;> try exact Or.inl rfl
    exact process_alike h _ _ _
  · exact process_alike h _ _ _

omit h in
private theorem netBytes_alike (size x : Nat) : @netBytes p size x = @netBytes q size x := by
  rw [@netBytes_eq p, @netBytes_eq q]

omit h in
private theorem frameHeader_alike (fh : FrameHeader) :
    @FrameHeader.serialize p fh = @FrameHeader.serialize q fh := by
  unfold FrameHeader.serialize
  rw [netBytes_alike (p := p) (q := q), netBytes_alike (p := p) (q := q) 4]

omit h in
private theorem setting_alike : @serializeSetting p = @serializeSetting q := by
  funext x
  unfold serializeSetting
  rw [netBytes_alike (p := p) (q := q), netBytes_alike (p := p) (q := q) 4]

omit h in
private theorem promise_alike (flags : UInt8) (sid : UInt32) (x : PushPromisePayload)
    (mode : EncodeMode) (t : DynamicTable) :
    @PushPromiseFrame.new p flags sid x mode t = @PushPromiseFrame.new q flags sid x mode t := by
  unfold PushPromiseFrame.new PushPromiseFrame.constructEncodedPayload
  rw [netBytes_alike (p := p) (q := q)]

omit h in
private theorem serialize_alike (f : Frame) : @Frame.serialize p f = @Frame.serialize q f := by
  cases f <;>
    simp only [Frame.serialize, DataFrame.serialize, HeadersFrame.serialize,
      PriorityFrame.serialize, RstStreamFrame.serialize, SettingsFrame.serialize,
      PushPromiseFrame.serialize, PingFrame.serialize, GoawayFrame.serialize,
      WindowUpdateFrame.serialize, ContinuationFrame.serialize, RawFrame.serialize,
      setting_alike (p := p) (q := q), netBytes_alike (p := p) (q := q), frameHeader_alike (p := p) (q := q)]

omit h in
private theorem send_alike (c : Client) (f : Frame) :
    @Client.sendFrame p c f = @Client.sendFrame q c f := by
  unfold Client.sendFrame
  rw [serialize_alike (p := p) (q := q)]

private theorem dump_alike (f : Frame) (s : Stream) :
    Hosts p q (@Frame.dump p f s) (@Frame.dump q f s) := by
  cases f with
  | data f =>
      unfold Frame.dump DataFrame.dump
      refine .bind ?_ fun _ => .same rfl
      unfold DataFrame.parts
      split
      · exact .bind (.same rfl) fun _ => .bind (addressRange_alike h _ _ _) fun _ => .same rfl
      · exact .bind (addressRange_alike h _ _ _) fun _ => .same rfl
  | _ => exact .same rfl

private theorem run_alike (op : Op) (c : Client) :
    HostsS p q (@Op.run p op c) (@Op.run q op c) := by
  cases op with
  | sendFrame f => exact Or.inl (send_alike c f)
  | receiveFrame =>
      have run : ∀ r : Platform, @Op.run r .receiveFrame c =
          (((@Client.receiveFrame r c).1 >>= fun _ => pure ()), (@Client.receiveFrame r c).2) :=
        fun _ => rfl
      rw [run p, run q]
      rcases receive_alike h c with e | ⟨h1, h2, h3⟩
      · rw [e]; exact Or.inl rfl
      · obtain ⟨k, e⟩ := isUb_cases h3
        rw [e]
        exact Or.inr ⟨h1, h2, (by simp [Res.IsUb] : (Res.ub k : Res Unit).IsUb)⟩
  | _ => exact Or.inl rfl

omit h in
private theorem andThen_alike {f f' : Sample.State → Res α × Sample.State}
    {g g' : α → Sample.State → Res β × Sample.State} (hf : ∀ s, HostsS p q (f s) (f' s))
    (hg : ∀ a s, HostsS p q (g a s) (g' a s)) (s : Sample.State) :
    HostsS p q (Sample.andThen f g s) (Sample.andThen f' g' s) := by
  unfold Sample.andThen
  rcases hf s with e | ⟨h1, h2, h3⟩
  · rw [e]
    split
    · exact hg _ _
    all_goals exact Or.inl rfl
  · obtain ⟨k, e⟩ := isUb_cases h3
    refine Or.inr ⟨h1, h2, ?_⟩
    rw [show f s = (.ub k, (f s).2) from Prod.ext e rfl]
    simp [Res.IsUb]

omit h in
private theorem onClient_alike {f f' : Client → Res α × Client}
    (hf : ∀ c, HostsS p q (f c) (f' c)) (s : Sample.State) :
    HostsS p q (Sample.onClient f s) (Sample.onClient f' s) := by
  unfold Sample.onClient
  rcases hf s.client with e | ⟨h1, h2, h3⟩
  · rw [e]; exact Or.inl rfl
  · exact Or.inr ⟨h1, h2, h3⟩

private theorem receiveFrames_alike (s : Sample.State) :
    HostsS p q (@Sample.receiveFrames p s) (@Sample.receiveFrames q s) := by
  generalize hn : s.client.conn.reads.length = n
  induction n using Nat.strong_induction_on generalizing s with
  | _ n ih =>
      rw [@Sample.receiveFrames.eq_1 p, @Sample.receiveFrames.eq_1 q]
      rcases receive_alike h s.client with e | ⟨h1, h2, h3⟩
      · rw [e]
        split
        rotate_left
        · exact Or.inl rfl
        · exact Or.inl rfl
        · exact Or.inl rfl
        rename_i f c _
        rcases dump_alike h f s.cout with e | ⟨h1, h2, h3⟩
        · rw [e]
          split
          rotate_left
          · exact Or.inl rfl
          · exact Or.inl rfl
          · exact Or.inl rfl
          split
          · split
            · exact ih _ (by rw [← hn]; assumption) _ rfl
            · exact Or.inl rfl
          · exact Or.inl rfl
        · obtain ⟨k, e⟩ := isUb_cases h3
          rw [e]
          exact Or.inr ⟨h1, h2, by simp [Res.IsUb]⟩
      · obtain ⟨k, e⟩ := isUb_cases h3
        rw [show @Client.receiveFrame p s.client = (.ub k, (@Client.receiveFrame p s.client).2) from
          Prod.ext e rfl]
        exact Or.inr ⟨h1, h2, by simp [Res.IsUb]⟩

private theorem main_alike (s : Sample.State) :
    HostsS p q (@Sample.main p s) (@Sample.main q s) := by
  unfold Sample.main
  refine andThen_alike (onClient_alike fun _ => Or.inl rfl) (fun _ => ?_) s
  refine andThen_alike (onClient_alike fun _ => Or.inl (send_alike _ _)) fun _ => ?_
  refine andThen_alike (onClient_alike fun _ => Or.inl rfl) fun _ => ?_
  refine andThen_alike (onClient_alike (receive_alike h)) fun f => ?_
  refine andThen_alike (fun s => ?_) fun _ => ?_
  · unfold Sample.print
    rcases dump_alike h f s.cout with e | ⟨h1, h2, h3⟩
    · rw [e]; exact Or.inl rfl
    · obtain ⟨k, e⟩ := isUb_cases h3
      rw [e]
      exact Or.inr ⟨h1, h2, by simp [Res.IsUb]⟩
  refine andThen_alike (onClient_alike fun _ => Or.inl (send_alike _ _)) fun _ => ?_
  refine andThen_alike (fun _ => Or.inl rfl) fun hf => ?_
  refine andThen_alike (onClient_alike fun _ => Or.inl (send_alike _ _)) fun _ => ?_
  refine andThen_alike (onClient_alike fun _ => Or.inl rfl) fun _ => ?_
  refine andThen_alike (receiveFrames_alike h) fun last s => ?_
  split
  · rw [show (fun c => @Client.sendFrame p c Sample.goawayToSend) =
      fun c => @Client.sendFrame q c Sample.goawayToSend from funext fun c => send_alike c _]
    exact Or.inl rfl
  · exact Or.inl rfl

end

/-! ## C115 -/

private theorem Hosts.equal {p q : Platform} {α : Type} {r r' : Res α} (h : Hosts p q r r')
    (hs : p.strictIndex = q.strictIndex) : r = r' := by
  rcases h with h | ⟨h1, h2, -⟩
  · exact h
  · rw [hs, h2] at h1; cases h1

private theorem HostsS.equal {p q : Platform} {α σ : Type} {r r' : Res α × σ}
    (h : HostsS p q r r') (hs : p.strictIndex = q.strictIndex) : r = r' := by
  rcases h with h | ⟨h1, h2, -⟩
  · exact h
  · rw [hs, h2] at h1; cases h1

/-- C115. The byte order of the host makes no difference: every call on a client does the same, gives
the same octets, the same frame and the same printed text. -/
theorem C115_byte_order (p q : Platform) (hs : p.strictIndex = q.strictIndex) :
    (∀ op c, @Op.run p op c = @Op.run q op c) ∧
    (∀ f, @Frame.serialize p f = @Frame.serialize q f) ∧
    (∀ flags sid payload mode table, @PushPromiseFrame.new p flags sid payload mode table =
      @PushPromiseFrame.new q flags sid payload mode table) ∧
    (∀ c, @Client.receiveFrame p c = @Client.receiveFrame q c) ∧
    (∀ f s, @Frame.dump p f s = @Frame.dump q f s) ∧
    (∀ s, @Sample.main p s = @Sample.main q s) := by
  have h : q.strictIndex = true → p.strictIndex = true := fun h => hs.trans h
  exact ⟨fun op c => (run_alike h op c).equal hs, serialize_alike, promise_alike,
    fun c => (receive_alike h c).equal hs, fun f s => (dump_alike h f s).equal hs,
    fun s => (main_alike h s).equal hs⟩

/-- C115. What a host that tolerates `v[v.size()]` does is what every other host does, up to the
point where that host runs into undefined behaviour. Sending is the same without exception. -/
theorem C115_same_or_undefined (p q : Platform) (hq : q.strictIndex = false) :
    (∀ op c, (@Op.run p op c).1.IsUb ∨ @Op.run p op c = @Op.run q op c) ∧
    (∀ f, @Frame.serialize p f = @Frame.serialize q f) ∧
    (∀ flags sid payload mode table, @PushPromiseFrame.new p flags sid payload mode table =
      @PushPromiseFrame.new q flags sid payload mode table) ∧
    (∀ c, (@Client.receiveFrame p c).1.IsUb ∨
      @Client.receiveFrame p c = @Client.receiveFrame q c) ∧
    (∀ f s, (@Frame.dump p f s).IsUb ∨ @Frame.dump p f s = @Frame.dump q f s) ∧
    (∀ s, (@Sample.main p s).1.IsUb ∨ @Sample.main p s = @Sample.main q s) := by
  have h : q.strictIndex = true → p.strictIndex = true := fun h => by rw [hq] at h; cases h
  exact ⟨fun op c => (run_alike h op c).elim Or.inr fun x => Or.inl x.2.2, serialize_alike, promise_alike,
    fun c => (receive_alike h c).elim Or.inr fun x => Or.inl x.2.2,
    fun f s => (dump_alike h f s).elim Or.inr fun x => Or.inl x.2.2,
    fun s => (main_alike h s).elim Or.inr fun x => Or.inl x.2.2⟩

/-- C115. Two runs of the same calls on two hosts, in which no call was undefined, end in the same
state: the same octets sent and the same octets, tables and schedules left. -/
theorem C115_histories (p q : Platform) (c c' d' : Client) (ops : List Op)
    (hp : @History p c ops c') (hq : @History q c ops d') : c' = d' := by
  induction ops generalizing c with
  | nil => cases hp; cases hq; rfl
  | cons op ops ih =>
      cases hp with
      | cons _ _ _ _ hs h1 =>
      cases hq with
      | cons _ _ _ _ hs' h2 =>
      have noUb : ∀ {r : Res Unit}, r.Safe → ¬ r.IsUb := by
        intro r h1 h2
        obtain ⟨k, rfl⟩ := isUb_cases h2
        exact h1
      have e : @Op.run p op c = @Op.run q op c := by
        cases hst : p.strictIndex
        · rcases (C115_same_or_undefined q p hst).1 op c with e | e
          · exact absurd e (noUb hs')
          · exact e.symm
        · cases hsq : q.strictIndex
          · rcases (C115_same_or_undefined p q hsq).1 op c with e | e
            · exact absurd e (noUb hs)
            · exact e
          · exact (C115_byte_order p q (hst.trans hsq.symm)).1 op c
      rw [e] at h1
      exact ih _ h1 h2

/-- A header with a value and one without: on hosts that count `v[v.size()]` as undefined the second
is undefined, otherwise both are the same everywhere. -/
example : (∀ p : Platform, ((@Client.receiveFrame p (Client.new ⟨[0, 0, 5, 1, 5, 0, 0, 0, 1,
      0x40, 1, 0x61, 1, 0x62], [], [9, 5], []⟩)).1 =
        .ok (.headers ⟨[0x40, 1, 0x61, 1, 0x62], ⟨5, 1, 5, 0, 1⟩, [], .zero,
          [⟨.incrementalIndexing, .header ([0x61], [0x62])⟩]⟩))) ∧
    (∀ p : Platform, p.strictIndex = true → (@Client.receiveFrame p (Client.new
      ⟨[0, 0, 4, 1, 5, 0, 0, 0, 1, 0x40, 1, 0x61, 0], [], [9, 4], []⟩)).1.IsUb) ∧
    (∀ p : Platform, p.strictIndex = false → (@Client.receiveFrame p (Client.new
      ⟨[0, 0, 4, 1, 5, 0, 0, 0, 1, 0x40, 1, 0x61, 0], [], [9, 4], []⟩)).1 =
        .ok (.headers ⟨[0x40, 1, 0x61, 0], ⟨4, 1, 5, 0, 1⟩, [], .zero,
          [⟨.incrementalIndexing, .header ([0x61], [])⟩]⟩)) := by
  refine ⟨?_, ?_, ?_⟩
  · rintro ⟨a, b⟩; cases a <;> cases b <;> decide +kernel
  · rintro ⟨a, b⟩ h
    cases b
    · cases h
    · cases a <;> exact ⟨.indexAtEnd, by decide +kernel⟩
  · rintro ⟨a, b⟩ h
    cases b
    · cases a <;> decide +kernel
    · cases h

end Mh2c
