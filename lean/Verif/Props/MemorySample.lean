/-
C141: the sample program when memory can run out.
-/
import Verif.Model.MemorySample
import Verif.Spec.MemorySample
import Verif.Props.Memory
import Verif.Props.Sample

namespace Mh2c.Sample

open Mh2c Mh2c.Stream

/-! ## What is printed is only added to -/

theorem hexBytes_extends (nl : Bytes) (i : Nat) (bs : Bytes) (s : Stream) :
    s.out <+: (hexBytes nl i bs s).out := by
  induction bs generalizing i s with
  | nil => exact List.prefix_refl _
  | cons b bs ih =>
      refine List.IsPrefix.trans ?_ (ih _ _)
      simp only [Stream.text, Stream.hexByte, List.append_assoc]
      exact List.prefix_append _ _

theorem dumpStart_extends (t : Bytes) (fh : FrameHeader) (s : Stream) : s.out <+: (dumpStart t fh s).out := by
  simp only [dumpStart, FrameHeader.dump, Stream.text, List.append_assoc]
  exact List.prefix_append _ _

theorem text_extends (t : Bytes) {s s' : Stream} (h : s.out <+: s'.out) : s.out <+: (s'.text t).out :=
  h.trans (List.prefix_append _ _)

theorem dumpBlock_extends (es : HeaderBlock) {s s' : Stream} (h : dumpBlock es s = .ok s') :
    s.out <+: s'.out := by
  induction es generalizing s with
  | nil => obtain rfl := Res.ok.inj h; exact List.prefix_refl _
  | cons e es ih =>
      obtain ⟨s1, h1, h2⟩ := Res.bind_eq_ok.1 h
      refine List.IsPrefix.trans ?_ (ih h2)
      unfold dumpEntry at h1
      split at h1
      · obtain ⟨n, -, h3⟩ := Res.bind_eq_ok.1 h1
        obtain rfl := Res.ok.inj h3
        exact text_extends _ (List.prefix_refl _)
      · obtain ⟨n, -, h3⟩ := Res.bind_eq_ok.1 h1
        obtain rfl := Res.ok.inj h3
        exact text_extends _ (List.prefix_refl _)

theorem dumpErrorCode_extends (code : UInt32) {s s' : Stream} (h : dumpErrorCode code s = .ok s') :
    s.out <+: s'.out := by
  unfold dumpErrorCode at h
  split at h
  all_goals
    obtain ⟨n, -, h3⟩ := Res.bind_eq_ok.1 h
    obtain rfl := Res.ok.inj h3
    exact text_extends _ (List.prefix_refl _)

theorem dumpSettings_extends (ps : SfPayload) {s s' : Stream} (h : dumpSettings ps s = .ok s') :
    s.out <+: s'.out := by
  induction ps generalizing s with
  | nil => obtain rfl := Res.ok.inj h; exact List.prefix_refl _
  | cons p ps ih =>
      obtain ⟨s1, h1, h2⟩ := Res.bind_eq_ok.1 h
      refine List.IsPrefix.trans ?_ (ih h2)
      unfold dumpSetting at h1
      split at h1
      all_goals
        obtain ⟨n, -, h3⟩ := Res.bind_eq_ok.1 h1
        obtain rfl := Res.ok.inj h3
        simp only [Stream.text, Stream.number, List.append_assoc]
        exact List.prefix_append _ _

theorem dumpPadding_extends (flags : UInt8) (p : Bytes) (s : Stream) :
    s.out <+: (dumpPadding flags p s).out := by
  unfold dumpPadding
  simp only
  split
  · exact text_extends _ ((text_extends _ (text_extends _ (List.prefix_refl _))).trans
      (hexBytes_extends _ _ _ _))
  · exact List.prefix_append _ _

theorem dump_extends [Platform] (f : Frame) {s s' : Stream} (h : f.dump s = .ok s') : s.out <+: s'.out := by
  cases f with
  | data f =>
      obtain ⟨⟨pl, d, p⟩, -, h2⟩ := Res.bind_eq_ok.1 h
      obtain rfl := Res.ok.inj h2
      exact text_extends _ ((text_extends _ (dumpStart_extends _ _ _)).trans (hexBytes_extends _ _ _ _))
  | headers f =>
      obtain ⟨s1, h1, h2⟩ := Res.bind_eq_ok.1 h
      obtain rfl := Res.ok.inj h2
      exact ((text_extends _ (dumpStart_extends _ _ _)).trans (dumpBlock_extends _ h1)).trans
        (dumpPadding_extends _ _ _)
  | priority f =>
      obtain rfl := Res.ok.inj h
      exact text_extends _ (dumpStart_extends _ _ _)
  | rstStream f => exact (dumpStart_extends _ _ _).trans (dumpErrorCode_extends _ h)
  | settings f => exact (dumpStart_extends _ _ _).trans (dumpSettings_extends _ h)
  | pushPromise f =>
      obtain ⟨s1, h1, h2⟩ := Res.bind_eq_ok.1 h
      obtain rfl := Res.ok.inj h2
      exact ((text_extends _ (dumpStart_extends _ _ _)).trans (dumpBlock_extends _ h1)).trans
        (dumpPadding_extends _ _ _)
  | ping f =>
      obtain rfl := Res.ok.inj h
      exact text_extends _ ((dumpStart_extends _ _ _).trans (hexBytes_extends _ _ _ _))
  | goaway f =>
      obtain ⟨s1, h1, h2⟩ := Res.bind_eq_ok.1 h
      simp only at h2
      split at h2
      all_goals
        obtain ⟨d, -, h3⟩ := Res.bind_eq_ok.1 h2
        obtain rfl := Res.ok.inj h3
        exact text_extends _ (text_extends _ (text_extends _
          ((text_extends _ (dumpStart_extends _ _ _)).trans (dumpErrorCode_extends _ h1))))
  | windowUpdate f =>
      obtain rfl := Res.ok.inj h
      exact text_extends _ (dumpStart_extends _ _ _)
  | continuation f =>
      exact (text_extends _ (dumpStart_extends _ _ _)).trans (dumpBlock_extends _ h)
  | raw f =>
      obtain rfl := Res.ok.inj h
      exact text_extends _ ((dumpStart_extends _ _ _).trans (hexBytes_extends _ _ _ _))

/-! ## Steps -/

/-- What was sent and printed in `s` is the beginning of what was sent and printed in `s'`. -/
structure Before (s s' : State) : Prop where
  sent : s.client.conn.sent <+: s'.client.conn.sent
  out : s.cout.out <+: s'.cout.out

theorem Before.refl (s : State) : Before s s := ⟨List.prefix_refl _, List.prefix_refl _⟩

theorem Before.trans {a b c : State} (h1 : Before a b) (h2 : Before b c) : Before a c :=
  ⟨h1.sent.trans h2.sent, h1.out.trans h2.out⟩

/-- One of the frames that the server sends from now on is HEADERS. -/
abbrev Meets (s : State) : Prop := SendsHeaders s.client.conn.incoming

/-- The step `fm` with memory that can run out follows the step `f`, from the state `s`. -/
structure FollowsAt {α : Type} (f : State → Res α × State)
    (fm : State → Memory → Ended α × State × Memory) (s : State) : Prop where
  grows : Before s (f s).2
  same : ∀ m r, (fm s m).1 = .res r → f s = (r, (fm s m).2.1) ∨ r = .ub .nullDeref ∧ Meets s
  keeps : ∀ a s1, f s = (.ok a, s1) → Meets s1 → Meets s
  stops : ∀ m, (fm s m).1 = .badAlloc → Before (fm s m).2.1 (f s).2
  enough : (fm s []).1 = .res (f s).1 ∧ (fm s []).2.2 = []

/-- The same from every state. -/
structure Follows {α : Type} (f : State → Res α × State) (fm : State → Memory → Ended α × State × Memory) :
    Prop where
  grows : ∀ s, Before s (f s).2
  same : ∀ s m r, (fm s m).1 = .res r → f s = (r, (fm s m).2.1) ∨ r = .ub .nullDeref ∧ Meets s
  keeps : ∀ s a s1, f s = (.ok a, s1) → Meets s1 → Meets s
  stops : ∀ s m, (fm s m).1 = .badAlloc → Before (fm s m).2.1 (f s).2
  enough : ∀ s, (fm s []).1 = .res (f s).1 ∧ (fm s []).2.2 = []

theorem Follows.at {α : Type} {f : State → Res α × State} {fm : State → Memory → Ended α × State × Memory}
    (h : Follows f fm) (s : State) : FollowsAt f fm s :=
  ⟨h.grows s, h.same s, h.keeps s, h.stops s, h.enough s⟩

theorem follows_of {α : Type} {f : State → Res α × State} {fm : State → Memory → Ended α × State × Memory}
    (h : ∀ s, FollowsAt f fm s) : Follows f fm :=
  ⟨fun s => (h s).grows, fun s => (h s).same, fun s => (h s).keeps, fun s => (h s).stops, fun s => (h s).enough⟩

theorem FollowsAt.andThen {α β : Type} {f : State → Res α × State}
    {fm : State → Memory → Ended α × State × Memory} {g : α → State → Res β × State}
    {gm : α → State → Memory → Ended β × State × Memory} {s : State} (hf : FollowsAt f fm s)
    (hg : ∀ a s1, f s = (.ok a, s1) → FollowsAt (g a) (gm a) s1) :
    FollowsAt (Sample.andThen f g) (andThenMem fm gm) s := by
  have grows : Before (f s).2 (Sample.andThen f g s).2 := by
    unfold Sample.andThen
    rcases hfs : f s with ⟨a | e | k | _, s1⟩
    · exact (hg a s1 hfs).grows
    all_goals exact Before.refl _
  refine ⟨hf.grows.trans grows, fun m r h => ?_, fun b s2 h h2 => ?_, fun m h => ?_, ?_⟩
  · have h1 := hf.same m
    unfold andThenMem at h ⊢
    unfold Sample.andThen
    rcases hfm : fm s m with ⟨(a | e | k | _) | _, s1, m1⟩ <;> rw [hfm] at h h1
    · rcases h1 _ rfl with h2 | ⟨h2, -⟩
      · rw [h2]
        rcases (hg a s1 h2).same m1 r h with h3 | ⟨h3, h4⟩
        · exact Or.inl h3
        · exact Or.inr ⟨h3, hf.keeps a s1 h2 h4⟩
      · cases h2
    · cases h
      rcases h1 _ rfl with h2 | ⟨h2, -⟩
      · rw [h2]; exact Or.inl rfl
      · cases h2
    · cases h
      rcases h1 _ rfl with h2 | ⟨h2, h3⟩
      · rw [h2]; exact Or.inl rfl
      · cases h2; exact Or.inr ⟨rfl, h3⟩
    · cases h
      rcases h1 _ rfl with h2 | ⟨h2, -⟩
      · rw [h2]; exact Or.inl rfl
      · cases h2
    · cases h
  · obtain ⟨a, s1, h3, h4⟩ := andThen_ok h
    exact hf.keeps a s1 h3 ((hg a s1 h3).keeps b s2 h4 h2)
  · have h1 := hf.same m
    have h3 := hf.stops m
    unfold andThenMem at h ⊢
    rcases hfm : fm s m with ⟨(a | e | k | _) | _, s1, m1⟩ <;> rw [hfm] at h h1 h3
    · rcases h1 _ rfl with h2 | ⟨h2, -⟩
      · have : (Sample.andThen f g s).2 = (g a s1).2 := by unfold Sample.andThen; rw [h2]
        rw [this]
        exact (hg a s1 h2).stops m1 h
      · cases h2
    · cases h
    · cases h
    · cases h
    · exact (h3 rfl).trans grows
  · have h1 := hf.enough
    have h3 := hf.same []
    unfold andThenMem Sample.andThen
    rcases hfm : fm s [] with ⟨r, s1, m1⟩
    rw [hfm] at h1 h3
    simp only at h1 h3
    obtain ⟨rfl, rfl⟩ := h1
    rcases h3 _ rfl with h2 | ⟨h2, -⟩
    · rcases hfs : f s with ⟨a | e | k | _, s2⟩
      · rw [hfs] at h2
        simp only at h2 ⊢
        obtain rfl := (Prod.mk.inj h2).2
        exact (hg a _ hfs).enough
      all_goals exact ⟨rfl, rfl⟩
    · rcases hfs : f s with ⟨a | e | k | _, s2⟩
      · rw [hfs] at h2; cases h2
      all_goals exact ⟨rfl, rfl⟩

theorem Follows.andThen {α β : Type} {f : State → Res α × State}
    {fm : State → Memory → Ended α × State × Memory} {g : α → State → Res β × State}
    {gm : α → State → Memory → Ended β × State × Memory} (hf : Follows f fm)
    (hg : ∀ a, Follows (g a) (gm a)) : Follows (Sample.andThen f g) (andThenMem fm gm) :=
  follows_of fun s => (hf.at s).andThen fun a s1 _ => (hg a).at s1

/-- Making something first that does not depend on the state. -/
theorem Follows.made {α β : Type} (a : α) {g : State → Res β × State}
    {gm : α → State → Memory → Ended β × State × Memory} (hg : Follows g (gm a)) :
    Follows g (andThenMem (makeMem fun _ => .ok a) gm) := by
  refine ⟨hg.grows, fun s m r h => ?_, hg.keeps, fun s m h => ?_, fun s => hg.enough s⟩
  · unfold andThenMem makeMem at h ⊢
    by_cases hm : m.next.1 = true
    · rw [if_pos hm] at h ⊢; exact hg.same s _ r h
    · rw [if_neg hm] at h; cases h
  · unfold andThenMem makeMem at h ⊢
    by_cases hm : m.next.1 = true
    · rw [if_pos hm] at h ⊢; exact hg.stops s _ h
    · rw [if_neg hm]; exact hg.grows s

theorem follows_make {α : Type} (f : State → Res α) : Follows (fun s => (f s, s)) (makeMem f) := by
  refine ⟨fun s => Before.refl s, fun s m r h => ?_, fun s a s1 h => ?_, fun s m h => ?_,
    fun s => ⟨rfl, rfl⟩⟩
  · unfold makeMem at h ⊢
    by_cases hm : m.next.1 = true
    · rw [if_pos hm] at h ⊢; cases h; exact Or.inl rfl
    · rw [if_neg hm] at h; cases h
  · obtain rfl := (Prod.mk.inj h).2
    exact id
  · unfold makeMem at h ⊢
    by_cases hm : m.next.1 = true
    · rw [if_pos hm] at h; cases h
    · rw [if_neg hm]; exact Before.refl s

theorem follows_done : Follows (fun s => ((.ok () : Res Unit), s)) fun s m => (.res (.ok ()), s, m) :=
  ⟨fun s => Before.refl s, fun s m r h => by cases h; exact Or.inl rfl,
    fun s a s1 h => by obtain rfl := (Prod.mk.inj h).2; exact id, nofun, fun s => ⟨rfl, rfl⟩⟩

/-- A call of the client. -/
theorem follows_client {α : Type} {f : Client → Res α × Client}
    {fm : Client → Memory → Ended α × Client × Memory}
    (grows : ∀ c, c.conn.sent <+: (f c).2.conn.sent)
    (same : ∀ c m r, (fm c m).1 = .res r → f c = (r, (fm c m).2.1) ∨
      r = .ub .nullDeref ∧ SendsHeaders c.conn.incoming)
    (keeps : ∀ c a c1, f c = (.ok a, c1) → SendsHeaders c1.conn.incoming → SendsHeaders c.conn.incoming)
    (stops : ∀ c m, (fm c m).1 = .badAlloc → (fm c m).2.1.conn.sent <+: (f c).2.conn.sent)
    (enough : ∀ c, (fm c []).1 = .res (f c).1 ∧ (fm c []).2.2 = []) :
    Follows (onClient f) (onClientMem fm) := by
  refine ⟨fun s => ⟨grows s.client, List.prefix_refl _⟩, fun s m r h => ?_, fun s a s1 h => ?_,
    fun s m h => ⟨stops s.client m h, List.prefix_refl _⟩, fun s => enough s.client⟩
  · rcases same s.client m r h with h1 | h1
    · left
      unfold onClient onClientMem
      rw [h1]
    · exact Or.inr h1
  · unfold onClient at h
    obtain ⟨e1, e2⟩ := Prod.mk.inj h
    refine keeps s.client a s1.client (Prod.ext e1 ?_)
    rw [← e2]

theorem sendRaw_grows (c : Client) (data : Bytes) : c.conn.sent <+: (c.sendRawData data).2.conn.sent := by
  obtain ⟨w, p, -, h, -⟩ := sendRaw_cases c data
  rw [h]
  exact List.prefix_append _ _

theorem sendRaw_incoming (c : Client) (data : Bytes) :
    (c.sendRawData data).2.conn.incoming = c.conn.incoming := by
  obtain ⟨w, p, -, h, -⟩ := sendRaw_cases c data
  rw [h]

theorem follows_op [Platform] {f : Client → Res Unit × Client}
    {fm : Client → Memory → Ended Unit × Client × Memory} (op : Op)
    (hf : ∀ c, op.run c = f c) (hfm : ∀ c m, op.runMem c m = fm c m)
    (hop : (∃ f, op = .sendFrame f) ∨ (∃ data, op = .sendRaw data) ∨ op = .sendPreface ∨
      ∃ n, op = .receiveRaw n)
    (grows : ∀ c, c.conn.sent <+: (f c).2.conn.sent) (hnil : ∀ c, (fm c []).2.2 = [])
    (hin : ∀ c, (f c).2.conn.incoming = c.conn.incoming) (hne : op ≠ .receiveFrame) :
    Follows (onClient f) (onClientMem fm) := by
  refine follows_client grows (fun c m r h => ?_) (fun c a c1 h => ?_) (fun c m h => ?_)
    (fun c => ⟨?_, hnil c⟩)
  · rw [← hfm] at h ⊢
    rw [← hf]
    rcases (C139_same_partial op c).1 m r h with h1 | ⟨h1, -⟩
    · exact Or.inl h1
    · exact absurd h1 hne
  · have := hin c
    rw [h] at this
    rw [this]
    exact id
  · rw [← hfm] at h ⊢
    rcases C139_send_partial op c m hop h with h1 | ⟨e, h1⟩
    · rw [h1]; exact grows c
    · rw [← hf, h1]; exact List.prefix_refl _
  · rw [← hfm, ← hf]
    exact (C139_same_partial op c).2

theorem follows_preface [Platform] :
    Follows (onClient Client.sendConnectionPreface) (onClientMem Client.sendPrefaceMem) := by
  refine follows_op .sendPreface (fun _ => rfl) (fun _ _ => rfl) (by simp) (fun c => sendRaw_grows c _) ?_
    (fun c => sendRaw_incoming c _) nofun
  intro c
  unfold Client.sendPrefaceMem Client.sendRawDataMem
  simp only [Memory.next, if_true, raise_nil]

theorem follows_send [Platform] (f : Frame) :
    Follows (onClient (·.sendFrame f)) (onClientMem (·.sendFrameMem f)) := by
  refine follows_op (.sendFrame f) (fun _ => rfl) (fun _ _ => rfl) (by simp) (fun c => ?_) ?_
    (fun c => ?_) nofun
  · unfold Client.sendFrame
    cases f.serialize with
    | ok raw => exact sendRaw_grows c raw
    | throw e => exact List.prefix_refl _
    | ub k => exact List.prefix_refl _
    | diverge => exact List.prefix_refl _
  · intro c
    unfold Client.sendFrameMem Client.sendRawDataMem
    simp only [Memory.next, if_true, raise_nil]
    cases f.serialize <;> rfl
  · unfold Client.sendFrame
    cases f.serialize with
    | ok raw => exact sendRaw_incoming c raw
    | throw e => rfl
    | ub k => rfl
    | diverge => rfl

theorem processFrameMem_rest [Platform] (c : Client) (fh : FrameHeader) (raw : Bytes) :
    (c.processFrameMem fh raw []).2.2 = [] := by
  unfold Client.processFrameMem
  rw [buildFrameMem_nil]
  cases buildFrame fh raw c.responseTable with
  | ok f =>
      simp only
      have h := updateFrameMem_nil f c.responseTable
      rcases hu : updateFrameMem f c.responseTable [] with ⟨(_ | _ | _ | _) | _, t', m'⟩ <;>
        (rw [hu] at h; exact h.2)
  | throw x => rfl
  | ub k => rfl
  | diverge => rfl

theorem receiveFrameMem_rest [Platform] (c : Client) : (c.receiveFrameMem []).2.2 = [] := by
  unfold Client.receiveFrameMem
  simp only [Memory.next, raise_nil, if_true]
  rcases c.receiveRawData 9 with ⟨_ | _ | _ | _, c1⟩
  · simp only
    rename_i rawFh
    cases buildFrameHeader rawFh with
    | ok fh =>
        simp only
        by_cases h0 : fh.length.toNat > 0
        · rw [if_pos h0]
          rcases c1.receiveRawData fh.length.toNat with ⟨_ | _ | _ | _, c2⟩
          · exact processFrameMem_rest _ _ _
          · rfl
          · rfl
          · rfl
        · rw [if_neg h0]
          exact processFrameMem_rest _ _ _
    | throw x => rfl
    | ub k => rfl
    | diverge => rfl
  · rfl
  · rfl
  · rfl

theorem receiveFrameMem_sent [Platform] (c : Client) (m : Memory) (h : (c.receiveFrameMem m).1 = .badAlloc) :
    (c.receiveFrameMem m).2.1.conn.sent = c.conn.sent := by
  rcases C139_receive_partial c _ m _ (Prod.ext h (Prod.ext rfl rfl)) with
    h | ⟨e, h⟩ | ⟨reads, -, -, -, h⟩ | ⟨reads, t, fh, -, -, h, -⟩
  · rw [h]
  · have := (C59_receive c).2.1
    rw [h] at this
    exact this
  · rw [h]
  · rw [h]

theorem receiveFrameMem_same [Platform] (c : Client) (m : Memory) (r : Res Frame)
    (h : (c.receiveFrameMem m).1 = .res r) :
    c.receiveFrame = (r, (c.receiveFrameMem m).2.1) ∨
      r = .ub .nullDeref ∧ SendsHeaders c.conn.incoming := by
  rcases receiveFrameMem_cases c m with ⟨r', h1, h2⟩ | ⟨h2, h3, h1⟩ | ⟨h1, -⟩
  · cases h1.symm.trans h; exact Or.inl h2
  · cases h1.symm.trans h; exact Or.inr ⟨rfl, .here _ h2 h3⟩
  · cases h1.symm.trans h

theorem follows_receive [Platform] :
    Follows (onClient Client.receiveFrame) (onClientMem Client.receiveFrameMem) := by
  refine follows_client (fun c => ?_) receiveFrameMem_same (fun c a c1 h h1 => ?_) (fun c m h => ?_)
    (fun c => ⟨receiveFrameMem_nil c, receiveFrameMem_rest c⟩)
  · rw [(C59_receive c).2.1]; exact List.prefix_refl _
  · obtain ⟨reads', -, ⟨k, -, -, h3⟩ | ⟨fh, -, -, h3, -, h5⟩⟩ := receiveFrame_cases c
    · rw [h3] at h; cases h
    · refine .later _ h3 ?_
      rw [h5, processFrame_eq] at h
      have e := (Prod.mk.inj h).2
      rw [← e] at h1
      exact h1
  · rw [(C59_receive c).2.1, receiveFrameMem_sent c m h]; exact List.prefix_refl _

theorem follows_size (n : Nat) : Follows (onClient (·.updateRequestTableSize n))
    (onClientMem fun c m => (.res (c.updateRequestTableSize n).1, (c.updateRequestTableSize n).2, m)) := by
  refine follows_client (fun c => ?_) (fun c m r h => ?_) (fun c a c1 h => ?_) (fun c m h => ?_)
    (fun c => ⟨rfl, rfl⟩)
  · unfold Client.updateRequestTableSize
    split <;> exact List.prefix_refl _
  · cases h; exact Or.inl rfl
  · unfold Client.updateRequestTableSize at h
    split at h <;> (obtain rfl := (Prod.mk.inj h).2; exact id)
  · cases h

theorem follows_report (b : HeaderBlock) : Follows (onClient (·.updateRequestDynamicTable b))
    (onClientMem (·.updateRequestTableMem b)) := by
  have sent : ∀ c : Client, (c.updateRequestDynamicTable b).2.conn.sent = c.conn.sent := fun c => rfl
  have sentMem : ∀ (c : Client) m, (c.updateRequestTableMem b m).2.1.conn.sent = c.conn.sent := fun c m => rfl
  have same : ∀ (c : Client) m r, (c.updateRequestTableMem b m).1 = .res r →
      c.updateRequestDynamicTable b = (r, (c.updateRequestTableMem b m).2.1) := by
    intro c m r h
    unfold Client.updateRequestTableMem at h ⊢
    unfold Client.updateRequestDynamicTable
    rcases updateTableMem_cases b c.requestTable m with ⟨r', h1, h2⟩ | ⟨h1, -⟩
    · cases h1.symm.trans h
      rw [h2]
    · cases h1.symm.trans h
  refine follows_client (fun c => ?_) (fun c m r h => Or.inl (same c m r h)) (fun c a c1 h => ?_)
    (fun c m h => ?_) (fun c => ⟨?_, (updateTableMem_nil b c.requestTable).2⟩)
  · rw [sent]; exact List.prefix_refl _
  · obtain rfl := (Prod.mk.inj h).2
    exact id
  · rw [sent, sentMem]; exact List.prefix_refl _
  · have h := updateTableMem_nil b c.requestTable
    cases hr : (c.updateRequestTableMem b []).1 with
    | res r => rw [same c [] r hr]
    | badAlloc => exact absurd hr h.1

theorem follows_print [Platform] (cut : Nat) (f : Frame) : Follows (print f) (printMem cut f) := by
  have grows : ∀ s : State, Before s (print f s).2 := by
    intro s
    unfold print
    cases h : f.dump s.cout with
    | ok out => exact ⟨List.prefix_refl _, dump_extends f h⟩
    | throw e => exact Before.refl s
    | ub k => exact Before.refl s
    | diverge => exact Before.refl s
  refine ⟨grows, fun s m r h => ?_, fun s a s1 h => ?_, fun s m h => ?_, fun s => ⟨rfl, rfl⟩⟩
  · unfold printMem at h ⊢
    by_cases hm : m.next.1 = true
    · rw [if_pos hm] at h ⊢; cases h; exact Or.inl rfl
    · rw [if_neg hm] at h
      split at h <;> cases h
  · unfold print at h
    split at h <;> (obtain rfl := (Prod.mk.inj h).2; exact id)
  · unfold printMem at h ⊢
    by_cases hm : m.next.1 = true
    · rw [if_pos hm] at h; cases h
    · rw [if_neg hm]
      split
      · rename_i out ho
        refine ⟨?_, ?_⟩
        · unfold print; rw [ho]; exact List.prefix_refl _
        · unfold print; rw [ho]; exact List.take_prefix _ _
      · exact grows s

theorem receiveFrames_round [Platform] (s : State) :
    receiveFrames s = Sample.andThen (onClient Client.receiveFrame) (fun f =>
      Sample.andThen (print f) fun _ s2 =>
        if isMoreData f.header then
          if s2.client.conn.reads.length < s.client.conn.reads.length then receiveFrames s2
          else (.diverge, s2)
        else (.ok f.header.type, s2)) s := by
  rw [receiveFrames]
  unfold Sample.andThen onClient print
  rcases s.client.receiveFrame with ⟨f | e | k | _, c⟩
  · simp only
    rcases f.dump s.cout with out | e | k | _ <;> rfl
  all_goals rfl

theorem receiveFramesMem_round [Platform] (cut : Nat) (s : State) (m : Memory) :
    receiveFramesMem cut s m = andThenMem (onClientMem Client.receiveFrameMem) (fun f =>
      andThenMem (printMem cut f) fun _ s2 m2 =>
        if isMoreData f.header then
          if s2.client.conn.reads.length < s.client.conn.reads.length then receiveFramesMem cut s2 m2
          else (.res .diverge, s2, m2)
        else (.res (.ok f.header.type), s2, m2)) s m := by
  rw [receiveFramesMem]
  unfold andThenMem onClientMem
  rcases s.client.receiveFrameMem m with ⟨(f | e | k | _) | _, c, m1⟩
  · simp only
    rcases printMem cut f ⟨c, s.cout⟩ m1 with ⟨(_ | _ | _ | _) | _, s2, m2⟩ <;> rfl
  all_goals rfl

theorem followsAt_congr {α : Type} {f g : State → Res α × State}
    {fm gm : State → Memory → Ended α × State × Memory} {s : State} (h : FollowsAt f fm s)
    (e : g s = f s) (em : ∀ m, gm s m = fm s m) : FollowsAt g gm s :=
  ⟨by rw [e]; exact h.grows, fun m => by rw [e, em]; exact h.same m,
    by rw [e]; exact h.keeps, fun m => by rw [e, em]; exact h.stops m,
    by rw [e, em]; exact h.enough⟩

theorem follows_loop [Platform] (cut : Nat) : Follows receiveFrames (receiveFramesMem cut) := by
  refine follows_of fun s => ?_
  induction hn : s.client.conn.reads.length using Nat.strong_induction_on generalizing s with
  | _ n ih =>
      subst hn
      refine followsAt_congr ?_ (receiveFrames_round s) (receiveFramesMem_round cut s)
      refine (follows_receive.at s).andThen fun f s1 h1 => ((follows_print cut f).at s1).andThen
        fun _ s2 h2 => ?_
      by_cases hm : isMoreData f.header = true
      · by_cases hr : s2.client.conn.reads.length < s.client.conn.reads.length
        · exact followsAt_congr (ih _ hr s2 rfl) (by rw [if_pos hm, if_pos hr])
            (fun m => by rw [if_pos hm, if_pos hr])
        · refine followsAt_congr (f := fun s => (.diverge, s)) (fm := fun s m => (.res .diverge, s, m))
            ⟨Before.refl _, fun m r h => ?_, fun a s1 h => ?_, nofun, rfl, rfl⟩ (by rw [if_pos hm, if_neg hr])
            (fun m => by rw [if_pos hm, if_neg hr])
          · cases h; exact Or.inl rfl
          · cases h
      · refine followsAt_congr (f := fun s => (.ok f.header.type, s))
          (fm := fun s m => (.res (.ok f.header.type), s, m))
          ⟨Before.refl _, fun m r h => ?_, fun a s1 h => ?_, nofun, rfl, rfl⟩ (by rw [if_neg hm]) (fun m => by rw [if_neg hm])
        · cases h; exact Or.inl rfl
        · obtain rfl := (Prod.mk.inj h).2; exact id

theorem follows_main [Platform] (cut : Nat) : Follows main (mainMem cut) := by
  unfold main mainMem
  refine follows_preface.andThen fun _ => .made settingsToSend ?_
  refine (follows_send _).andThen fun _ => (follows_size 8192).andThen fun _ => ?_
  refine follows_receive.andThen fun f => (follows_print cut f).andThen fun _ => ?_
  refine (follows_send _).andThen fun _ => ?_
  refine (follows_make fun s => requestFrame s.client.requestTable).andThen fun hf => ?_
  refine (follows_send _).andThen fun _ => .made hf.headerBlock ?_
  refine (follows_report _).andThen fun _ => (follows_loop cut).andThen fun last => ?_
  split
  · exact follows_send _
  · exact follows_done

/-! ## C141 -/

/-- C141, the part that holds of runs that do not end with `std::bad_alloc`: such a run ends as it does where
memory never runs out, and has sent, received and printed the same, unless the server has sent HEADERS. In
particular `main` returns only if it has done everything. With enough memory no run ends with
`std::bad_alloc`. Missing: HEADERS, see `C141_headers_violated`. -/
theorem C141_ends_partial [Platform] (cut : Nat) (s : State) :
    (∀ m r s' m', mainMem cut s m = (.res r, s', m') → main s = (r, s') ∨
      r = .ub .nullDeref ∧ SendsHeaders s.client.conn.incoming) ∧
    (∀ m s' m', mainMem cut s m = (.res (.ok ()), s', m') → main s = (.ok (), s')) ∧
    (mainMem cut s []).1 = .res (main s).1 := by
  have key : ∀ m r s' m', mainMem cut s m = (.res r, s', m') → main s = (r, s') ∨
      r = .ub .nullDeref ∧ SendsHeaders s.client.conn.incoming := by
    intro m r s' m' h
    have := (follows_main cut).same s m r (by rw [h])
    rw [h] at this
    exact this
  refine ⟨key, fun m s' m' h => ?_, ((follows_main cut).enough s).1⟩
  rcases key m _ s' m' h with h1 | ⟨h1, -⟩
  · exact h1
  · cases h1

/-- C141, the part that holds of the other runs. A run that ends with `std::bad_alloc` has sent a beginning of what it sends where memory never runs
out, and printed a beginning of what it prints there (and then the text of the exception, if it was in
`receive_frames`); what it has sent is a beginning of the sequence of C72 in any case.
Missing: that every run that runs out of memory ends so, see `C141_headers_violated`. -/
theorem C141_stops_partial [Platform] (cut : Nat) (conn : Conn) (cout : Stream) (m m' : Memory) (s' : State)
    (h : mainMem cut ⟨Client.new conn, cout⟩ m = (.badAlloc, s', m')) :
    s'.client.conn.sent <+: (main ⟨Client.new conn, cout⟩).2.client.conn.sent ∧
      s'.cout.out <+: (main ⟨Client.new conn, cout⟩).2.cout.out ∧
      s'.client.conn.sent <+: conn.sent ++ sequence := by
  have := (follows_main cut).stops ⟨Client.new conn, cout⟩ m (by rw [h])
  rw [h] at this
  obtain ⟨p, hp, h1⟩ := C72_any_run conn cout
  refine ⟨this.sent, this.out, this.sent.trans ?_⟩
  rw [h1]
  exact (List.prefix_append_right_inj _).2 hp

/-- C141 is false of the code: a server sends SETTINGS, HEADERS with the response, and its body. With memory the
sample returns. If memory runs out while it decodes the HEADERS, it is undefined behaviour and not an
exception. -/
theorem C141_headers_violated [P : Platform] : ∃ cut conn m,
    conn.incoming = Rfc.frameOctets 4 0 0 [] ++ Rfc.frameOctets 1 4 1 [0x88] ++ Rfc.frameOctets 0 1 1 (bstr "hi") ∧
    (main ⟨Client.new conn, ⟨[], false⟩⟩).1 = .ok () ∧
    (mainMem cut ⟨Client.new conn, ⟨[], false⟩⟩ m).1 = .res (.ub .nullDeref) := by
  refine ⟨0, ⟨[0, 0, 0, 4, 0, 0, 0, 0, 0, 0, 0, 1, 1, 4, 0, 0, 0, 1, 0x88, 0, 0, 2, 0, 1, 0, 0, 0, 1, 104, 105],
    [], [9, 9, 9, 9, 9, 9], [100, 100, 100, 100, 100]⟩,
    List.replicate 13 true ++ [false], by decide +kernel, ?_, ?_⟩
  · rcases P with ⟨_ | _, _ | _⟩ <;> decide +kernel
  · rcases P with ⟨_ | _, _ | _⟩ <;> decide +kernel

attribute [local instance] x86 in
/-- Non-vacuity of `C141_stops_partial`: there is no memory for the payload of the second frame, or to print all of the
first. -/
example : let s : State := ⟨Client.new ⟨[0, 0, 0, 4, 0, 0, 0, 0, 0, 0, 0, 1, 0, 1, 0, 0, 0, 1, 105], [],
      [9, 9, 9], [100, 100, 100, 100, 100]⟩, ⟨[], false⟩⟩
    ((mainMem 7 s (List.replicate 12 true ++ [false])).1 = .badAlloc ∧
      (mainMem 7 s (List.replicate 12 true ++ [false])).2.1.client.conn.sent =
        preface ++ settingsOctets ++ ackOctets ++ requestOctets) ∧
    (mainMem 7 s (List.replicate 6 true ++ [false])).1 = .badAlloc ∧
      (mainMem 7 s (List.replicate 6 true ++ [false])).2.1.client.conn.sent = preface ++ settingsOctets ∧
      (mainMem 7 s (List.replicate 6 true ++ [false])).2.1.cout.out = bstr "=== SET" := by
  decide +kernel

attribute [local instance] x86 in
/-- Non-vacuity of `C141_ends_partial`: a run that has exactly the memory it needs, and one that lacks the last
part of it. -/
example : let s : State := ⟨Client.new ⟨[0, 0, 0, 4, 0, 0, 0, 0, 0, 0, 0, 1, 0, 1, 0, 0, 0, 1, 105], [],
      [9, 9, 9], [100, 100, 100, 100, 100]⟩, ⟨[], false⟩⟩
    (mainMem 7 s (List.replicate 16 true ++ [false])).1 = .res (.ok ()) ∧
    (mainMem 7 s (List.replicate 15 true ++ [false])).1 = .badAlloc := by
  decide +kernel

end Mh2c.Sample
