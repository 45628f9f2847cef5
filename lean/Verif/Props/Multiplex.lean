/-
C129: the frames of several streams on one connection.
-/
import Verif.Spec.Multiplex
import Verif.Props.ServerStream
import Verif.Props.Split

namespace Mh2c

open Rfc

theorem namesTableSize_none {settings : List (UInt16 × UInt32)}
    (h : namesTableSize (settingsOctets settings) = false) : settings.lookup 1 = none := by
  induction settings with
  | nil => rfl
  | cons s rest ih =>
      rcases s with ⟨id, value⟩
      have e : settingsOctets ((id, value) :: rest) =
          UInt8.ofNat (id.toNat / 256 ^ 1 % 256) :: UInt8.ofNat (id.toNat / 256 ^ 0 % 256) ::
          UInt8.ofNat (value.toNat / 256 ^ 3 % 256) :: UInt8.ofNat (value.toNat / 256 ^ 2 % 256) ::
          UInt8.ofNat (value.toNat / 256 ^ 1 % 256) :: UInt8.ofNat (value.toNat / 256 ^ 0 % 256) ::
          settingsOctets rest := by
        rfl
      rw [e] at h
      unfold namesTableSize at h
      rw [Bool.or_eq_false_iff] at h
      rw [List.lookup_cons]
      have hne : (1 == id) = false := by
        rw [beq_eq_false_iff_ne]
        rintro rfl
        exact absurd h.1 (by decide)
      rw [hne]
      exact ih h.2

/-- A frame that does not concern the table: what becomes of it does not depend on the table, and the
table stays as it is. -/
theorem process_indifferent [Platform] {w : WireFrame} (h : w.concernsTable = false)
    (fh : FrameHeader) (hf : fh.type = w.type) (t u : DynamicTable) :
    (processTable fh w.payload t).1 = (processTable fh w.payload u).1 ∧
    (processTable fh w.payload t).2 = t := by
  unfold WireFrame.concernsTable at h
  simp only [Bool.or_eq_false_iff, beq_eq_false_iff_ne, ← hf] at h
  obtain ⟨⟨⟨h1, h5⟩, h9⟩, h4⟩ := h
  have hsame : buildFrame fh w.payload t = buildFrame fh w.payload u := by
    rcases type_cases fh.type with h | h | h | h | h | h | h | h | h | h | h
    · rw [buildFrame_data _ _ _ h, buildFrame_data _ _ _ h]
    · exact absurd h h1
    · rw [buildFrame_priority _ _ _ h, buildFrame_priority _ _ _ h]
    · rw [buildFrame_rstStream _ _ _ h, buildFrame_rstStream _ _ _ h]
    · rw [buildFrame_settings _ _ _ h, buildFrame_settings _ _ _ h]
    · exact absurd h h5
    · rw [buildFrame_ping _ _ _ h, buildFrame_ping _ _ _ h]
    · rw [buildFrame_goaway _ _ _ h, buildFrame_goaway _ _ _ h]
    · rw [buildFrame_windowUpdate _ _ _ h, buildFrame_windowUpdate _ _ _ h]
    · exact absurd h h9
    · rw [buildFrame_unknown _ _ _ h, buildFrame_unknown _ _ _ h]
  have hup : ∀ v f, buildFrame fh w.payload v = .ok f → updateDynamicTableFrame f v = (.ok (), v) := by
    intro v f hb
    have hbuilt := built_of_ok hb
    rw [updateFrame_built hbuilt]
    cases hbuilt with
    | headers h => exact absurd h h1
    | rawHeaders h => exact absurd h h1
    | pushPromise h => exact absurd h h5
    | continuation h => exact absurd h h9
    | settings h p hp =>
        have hl : w.payload.length % 6 = 0 := by
          by_contra hn
          have := parseSettings_malformed w.payload [] hn
          rw [hp] at this
          cases this
        obtain ⟨settings, g, e1, e2, e3⟩ := C50_well_formed_partial fh h w.payload v hl
        rw [hb] at e2
        injection e2 with e2
        injection e2 with e2
        have hnone : settings.lookup 1 = none := by
          apply namesTableSize_none
          rw [← e1]
          rw [h] at h4
          simpa using h4
        have := e3 1
        rw [← e2, hnone] at this
        simp only [this]
    | _ => rfl
  unfold processTable
  rw [← hsame]
  cases hb : buildFrame fh w.payload t with
  | ok f =>
      simp only [hup t f hb, hup u f (hsame ▸ hb)]
      exact ⟨trivial, trivial⟩
  | throw e => exact ⟨rfl, rfl⟩
  | ub k => exact ⟨rfl, rfl⟩
  | diverge => exact ⟨rfl, rfl⟩

/-- The header the client reads off a frame. -/
def WireFrame.header (w : WireFrame) : FrameHeader :=
  ⟨castToFhLength w.payload.length, w.type, w.flags, 0, w.streamId⟩

/-- What becomes of the frames, from the table `t` on. -/
def outcomes [Platform] : List WireFrame → DynamicTable → List (WireFrame × Res Frame) × DynamicTable
  | [], t => ([], t)
  | w :: ws, t =>
      ((w, (processTable w.header w.payload t).1) ::
        (outcomes ws (processTable w.header w.payload t).2).1,
       (outcomes ws (processTable w.header w.payload t).2).2)

theorem willing_split {reads : List Nat} {a b : Nat} (h : Willing reads (a + b)) :
    Willing reads a ∧ ∀ j, j ≤ a → Willing (reads.drop j) b := by
  obtain ⟨h1, h2⟩ := h
  refine ⟨⟨by omega, fun k hk => h2 k ?_⟩,
    fun j hj => ⟨by rw [List.length_drop]; omega, fun k hk => h2 k ?_⟩⟩
  · exact (List.take_prefix_take_left (Nat.le_add_right a b)).subset hk
  · rw [List.take_drop] at hk
    exact (List.take_prefix_take_left (by omega : j + b ≤ a + b)).subset (List.mem_of_mem_drop hk)

theorem receives_outcomes [Platform] {ws : List WireFrame} {c : Client} {rest : Bytes}
    (h : Delivers c ws rest) :
    answers ws c = (outcomes ws c.responseTable).1 ∧
    (receives ws.length c).2.responseTable = (outcomes ws c.responseTable).2 ∧
    (receives ws.length c).2.conn.incoming = rest := by
  induction ws generalizing c with
  | nil => exact ⟨rfl, rfl, h.incoming⟩
  | cons w ws ih =>
      have hi := h.incoming
      have hw := h.willing
      rw [List.flatMap_cons, List.append_assoc] at hi
      rw [List.flatMap_cons, List.length_append] at hw
      obtain ⟨j, hj, e⟩ := receive_one (d := c) (h.fits w List.mem_cons_self).2
        (h.fits w List.mem_cons_self).1 hi (willing_split hw).1
      have hd : Delivers c.receiveFrame.2 ws rest := by
        refine ⟨fun v hv => h.fits v (List.mem_cons_of_mem _ hv), by rw [e], ?_⟩
        rw [e]
        exact (willing_split hw).2 j hj
      obtain ⟨i1, i2, i3⟩ := ih hd
      have e1 : c.receiveFrame.1 = (processTable w.header w.payload c.responseTable).1 := by rw [e]; rfl
      have e2 : c.receiveFrame.2.responseTable =
          (processTable w.header w.payload c.responseTable).2 := by rw [e]; rfl
      rw [e2] at i1 i2
      refine ⟨?_, i2, i3⟩
      show (w, c.receiveFrame.1) :: answers ws c.receiveFrame.2 = _
      rw [i1, e1]
      rfl

theorem outcomes_fst [Platform] (ws : List WireFrame) (t : DynamicTable) :
    (outcomes ws t).1.map Prod.fst = ws := by
  induction ws generalizing t with
  | nil => rfl
  | cons w ws ih => exact congrArg (w :: ·) (ih _)

/-- Frames that do not concern the table can be left out. -/
theorem outcomes_filter [Platform] (keep : WireFrame → Bool) (ws : List WireFrame) (t : DynamicTable)
    (hk : ∀ w ∈ ws, w.concernsTable = true → keep w = true) :
    (outcomes ws t).1.filter (fun p => keep p.1) = (outcomes (ws.filter keep) t).1 ∧
    (outcomes ws t).2 = (outcomes (ws.filter keep) t).2 := by
  induction ws generalizing t with
  | nil => exact ⟨rfl, rfl⟩
  | cons w ws ih =>
      have ih := fun t => ih t fun v hv => hk v (List.mem_cons_of_mem _ hv)
      by_cases h : keep w = true
      · rw [List.filter_cons_of_pos h]
        refine ⟨?_, (ih _).2⟩
        show List.filter _ ((w, _) :: _) = _
        rw [List.filter_cons_of_pos (by exact h), (ih _).1]
        rfl
      · rw [List.filter_cons_of_neg h]
        have hc : w.concernsTable = false := by
          cases hw : w.concernsTable with
          | false => rfl
          | true => exact absurd (hk w List.mem_cons_self hw) h
        have hp := (process_indifferent hc w.header rfl t t).2
        constructor
        · show List.filter _ ((w, _) :: _) = _
          rw [List.filter_cons_of_neg (by exact h), (ih _).1, hp]
        · show (outcomes ws (processTable w.header w.payload t).2).2 = _
          rw [hp]
          exact (ih _).2

theorem outcomes_indifferent [Platform] (ws : List WireFrame) (t u : DynamicTable) :
    ∀ p ∈ (outcomes ws t).1, p.1.concernsTable = false →
      p.2 = (processTable p.1.header p.1.payload u).1 := by
  induction ws generalizing t with
  | nil => intro p hp; cases hp
  | cons w ws ih =>
      intro p hp hc
      rcases List.mem_cons.1 hp with rfl | hp
      · exact (process_indifferent hc _ rfl t u).1
      · exact ih _ p hp hc

theorem pairs_equal {α β : Type} (q : α → Bool) (g : α → β) {A B : List (α × β)}
    (hfst : A.map Prod.fst = B.map Prod.fst)
    (hA : ∀ p ∈ A, q p.1 = false → p.2 = g p.1) (hB : ∀ p ∈ B, q p.1 = false → p.2 = g p.1)
    (hq : A.filter (fun p => q p.1) = B.filter (fun p => q p.1)) : A = B := by
  induction A generalizing B with
  | nil =>
      cases B with
      | nil => rfl
      | cons b B => cases hfst
  | cons a A ih =>
      cases B with
      | nil => cases hfst
      | cons b B =>
          rw [List.map_cons, List.map_cons] at hfst
          injection hfst with h1 h2
          have ih := fun h => ih h2 (fun p hp => hA p (List.mem_cons_of_mem _ hp))
            (fun p hp => hB p (List.mem_cons_of_mem _ hp)) h
          by_cases h : q a.1 = true
          · rw [List.filter_cons_of_pos (by exact h), List.filter_cons_of_pos (by rw [← h1]; exact h)] at hq
            injection hq with e1 e2
            rw [e1, ih e2]
          · have h' : q a.1 = false := by simpa using h
            rw [List.filter_cons_of_neg (by exact h), List.filter_cons_of_neg (by rw [← h1]; exact h)] at hq
            rw [ih hq, Prod.ext h1 ((hA a List.mem_cons_self h').trans
              (by rw [h1]; exact (hB b List.mem_cons_self (h1 ▸ h')).symm))]

/-! ## C129 -/

/-- C129, frames in between. Take any frames out of what a server sends, or put any in, as long as
they have nothing to do with header compression: whatever the frames are, well formed or not, the
others are received as before, with the same exceptions, and the response table and the rest of the
stream are the same afterwards. -/
theorem C129_between [Platform] (c d : Client) (ws : List WireFrame) (keep : WireFrame → Bool)
    (rest rest' : Bytes) (hk : ∀ w ∈ ws, w.concernsTable = true → keep w = true)
    (hc : Delivers c ws rest) (hd : Delivers d (ws.filter keep) rest')
    (ht : c.responseTable = d.responseTable) :
    (answers ws c).filter (fun p => keep p.1) = answers (ws.filter keep) d ∧
    (receives ws.length c).2.responseTable =
      (receives (ws.filter keep).length d).2.responseTable ∧
    (receives ws.length c).2.conn.incoming = rest ∧
    (receives (ws.filter keep).length d).2.conn.incoming = rest' := by
  obtain ⟨a1, a2, a3⟩ := receives_outcomes hc
  obtain ⟨b1, b2, b3⟩ := receives_outcomes hd
  obtain ⟨f1, f2⟩ := outcomes_filter keep ws c.responseTable hk
  rw [a1, a2, b1, b2, ← ht]
  exact ⟨f1, f2, a3, b3⟩

/-- C129, interleaving. Two servers send the same frames on each stream, and the frames that have to do
with header compression in the same order, but the streams are interleaved in another way otherwise:
on every stream the same is received, with the same exceptions, and the response table is the same
afterwards. -/
theorem C129_interleaving [Platform] (c d : Client) (ws vs : List WireFrame) (rest rest' : Bytes)
    (hs : ∀ s, ws.filter (fun w => w.streamId == s) = vs.filter (fun w => w.streamId == s))
    (hh : ws.filter WireFrame.concernsTable = vs.filter WireFrame.concernsTable)
    (hc : Delivers c ws rest) (hd : Delivers d vs rest') (ht : c.responseTable = d.responseTable) :
    (∀ s, (answers ws c).filter (fun p => p.1.streamId == s) =
      (answers vs d).filter (fun p => p.1.streamId == s)) ∧
    (receives ws.length c).2.responseTable = (receives vs.length d).2.responseTable := by
  obtain ⟨a1, a2, -⟩ := receives_outcomes hc
  obtain ⟨b1, b2, -⟩ := receives_outcomes hd
  obtain ⟨f1, f2⟩ := outcomes_filter WireFrame.concernsTable ws c.responseTable (fun _ _ h => h)
  obtain ⟨g1, g2⟩ := outcomes_filter WireFrame.concernsTable vs c.responseTable (fun _ _ h => h)
  rw [a1, a2, b1, b2, ← ht]
  refine ⟨fun s => ?_, by rw [f2, g2, hh]⟩
  have fst : ∀ l : List WireFrame, ((outcomes l c.responseTable).1.filter
      fun p => p.1.streamId == s).map Prod.fst = l.filter fun w => w.streamId == s := by
    intro l
    have := List.filter_map (f := Prod.fst) (p := fun w : WireFrame => w.streamId == s)
      (l := (outcomes l c.responseTable).1)
    rw [outcomes_fst] at this
    exact this.symm
  refine pairs_equal WireFrame.concernsTable
    (fun w => (processTable w.header w.payload c.responseTable).1) ((fst ws).trans ((hs s).trans (fst vs).symm))
    (fun p hp => outcomes_indifferent ws _ _ p (List.mem_of_mem_filter hp))
    (fun p hp => outcomes_indifferent vs _ _ p (List.mem_of_mem_filter hp)) ?_
  rw [List.filter_comm, f1, hh, ← g1, List.filter_comm]

/-- HEADERS with `a: b` to be indexed, DATA on another stream, PING, a frame of unknown type, a PRIORITY
frame of a wrong length, CONTINUATION with a reference to `a: b`. -/
def mixedFrames : List WireFrame :=
  [⟨1, 0, 1, [0x40, 1, 97, 1, 98]⟩, ⟨0, 1, 3, [7, 7]⟩, ⟨6, 0, 0, [1, 2, 3, 4, 5, 6, 7, 8]⟩,
    ⟨77, 0, 1, [1]⟩, ⟨2, 0, 1, [1]⟩, ⟨9, 4, 1, [0xbe]⟩]

/-- The same with the streams interleaved in another way: first stream 3, then stream 1, then stream 0. -/
def sortedFrames : List WireFrame :=
  [⟨0, 1, 3, [7, 7]⟩, ⟨1, 0, 1, [0x40, 1, 97, 1, 98]⟩, ⟨77, 0, 1, [1]⟩, ⟨2, 0, 1, [1]⟩,
    ⟨9, 4, 1, [0xbe]⟩, ⟨6, 0, 0, [1, 2, 3, 4, 5, 6, 7, 8]⟩]

/-- The client whose peer sends these frames, which arrive nine octets at a time. -/
def clientOf (ws : List WireFrame) : Client :=
  Client.new ⟨ws.flatMap WireFrame.octets, [], List.replicate 200 9, []⟩

/-- What a call gives, in short: type and header list of a frame, or the exception. -/
def brief (r : Res Frame) : Res (UInt8 × List Header) :=
  r.bind fun f => .ok (f.header.type, f.headerList)

theorem clientOf_delivers (ws : List WireFrame) (hf : ∀ w ∈ ws, w.Fits)
    (hl : (ws.flatMap WireFrame.octets).length ≤ 200) : Delivers (clientOf ws) ws [] := by
  refine ⟨hf, (List.append_nil _).symm, by
    show _ ≤ (List.replicate 200 9).length
    rw [List.length_replicate]; exact hl, fun k hk => ?_⟩
  have hk : k ∈ List.replicate 200 9 := List.mem_of_mem_take hk
  rw [List.mem_replicate] at hk
  omega

/-- The hypotheses of C129 are met, and the calls have outcomes of several kinds. -/
example [P : Platform] :
    Delivers (clientOf mixedFrames) mixedFrames [] ∧
    Delivers (clientOf (mixedFrames.filter WireFrame.concernsTable))
      (mixedFrames.filter WireFrame.concernsTable) [] ∧
    Delivers (clientOf sortedFrames) sortedFrames [] ∧
    (∀ s, mixedFrames.filter (fun w => w.streamId == s) =
      sortedFrames.filter (fun w => w.streamId == s)) ∧
    mixedFrames.filter WireFrame.concernsTable = sortedFrames.filter WireFrame.concernsTable ∧
    (mixedFrames.filter WireFrame.concernsTable).length = 2 ∧
    ((answers mixedFrames (clientOf mixedFrames)).map fun p => brief p.2) =
      [.ok (1, [([97], [98])]), .ok (0, []), .ok (6, []), .throw .outOfRange,
        .throw .invalidArgument, .ok (9, [([97], [98])])] ∧
    (receives 6 (clientOf mixedFrames)).2.responseTable.entries = [([97], [98])] := by
  refine ⟨clientOf_delivers _ (by unfold WireFrame.Fits; decide) (by decide),
    clientOf_delivers _ (by unfold WireFrame.Fits; decide) (by decide),
    clientOf_delivers _ (by unfold WireFrame.Fits; decide) (by decide), fun s => ?_, by decide,
    by decide, ?_, ?_⟩
  · unfold mixedFrames sortedFrames
    simp only [List.filter_cons, List.filter_nil]
    by_cases h0 : (0 : UInt32) = s
    · subst h0; decide
    by_cases h1 : (1 : UInt32) = s
    · subst h1; decide
    by_cases h3 : (3 : UInt32) = s
    · subst h3; decide
    simp [h0, h1, h3]
  · rcases P with ⟨_ | _, _ | _⟩ <;> decide +kernel
  · rcases P with ⟨_ | _, _ | _⟩ <;> decide +kernel

/-- The condition on the order of the frames with header blocks is needed: with the HEADERS frame of
stream 3 before the reference on stream 1, another header is received on stream 1. -/
example [P : Platform] :
    let a : WireFrame := ⟨1, 4, 1, [0x40, 1, 97, 1, 98]⟩
    let b : WireFrame := ⟨1, 4, 3, [0x40, 1, 99, 1, 100]⟩
    let r : WireFrame := ⟨1, 4, 1, [0xbe]⟩
    ((answers [a, r, b] (clientOf [a, r, b])).map fun p => brief p.2) =
      [.ok (1, [([97], [98])]), .ok (1, [([97], [98])]), .ok (1, [([99], [100])])] ∧
    ((answers [a, b, r] (clientOf [a, b, r])).map fun p => brief p.2) =
      [.ok (1, [([97], [98])]), .ok (1, [([99], [100])]), .ok (1, [([99], [100])])] := by
  intro a b r
  refine ⟨?_, ?_⟩ <;> rcases P with ⟨_ | _, _ | _⟩ <;> decide +kernel

end Mh2c
