/-
C133: a log of frames printed one after the other can be cut into the frames again.
-/
import Verif.Proofs.Log
import Verif.Props.Sample

namespace Mh2c

open Rfc Out

/-- What printing one frame without forged titles adds. -/
theorem one_frame [Platform] {f : Frame} {s s1 : OStream} {t : Bytes} (h : f.print s = .ok s1)
    (ht : s1.out = s.out ++ t) (hw : s.fmt.width = 0) (hf : NoForgedTitle f) :
    OneFrame t ∧ title f ++ [10] <+: t ∧ s1.fmt.width = 0 ∧ s1.fmt.left = s.fmt.left := by
  obtain ⟨l, h1, rfl⟩ := print_eq_ok h
  obtain ⟨x, e, w, c⟩ := Sc.frame h1 hf s hw
  rw [e] at ht
  have := List.append_cancel_left ht
  subst this
  obtain ⟨m, rfl⟩ := outs_head h1
  have h3 := segs_tail (segs_frame h1)
  have hp : title f ++ [10] <+: x := by
    rw [puts_cons] at e
    obtain ⟨u, e1, -⟩ := segs_same h3 (s.put (text (title f ++ [10]))) (s.put (text (title f ++ [10])))
      rfl rfl (fun _ => ⟨rfl, rfl, rfl⟩) (fun _ => ⟨rfl, rfl, rfl⟩)
    rw [e1] at e
    simp only [OStream.put, pad_zero _ hw, List.append_assoc, List.append_cancel_left_eq] at e
    exact ⟨u, by rw [← e]; simp⟩
  refine ⟨⟨List.IsPrefix.trans ?_ hp, c⟩, hp, w, ?_⟩
  · cases f <;> exact ⟨_, rfl⟩
  · rw [puts_cons, segs_format h3 _ rfl]
    rfl

theorem logs_frames [Platform] {fs : List Frame} {s s' : OStream} {ts : List Bytes}
    (h : Logs fs s ts s') (hw : s.fmt.width = 0) (hf : ∀ f ∈ fs, NoForgedTitle f) :
    (∀ t ∈ ts, OneFrame t) ∧ ts.length = fs.length ∧ s'.out = s.out ++ ts.flatten ∧
      ∀ (k : Nat) f t, fs[k]? = some f → ts[k]? = some t → title f ++ [10] <+: t := by
  induction h with
  | nil s => exact ⟨by simp, rfl, by simp, by simp⟩
  | cons f fs s s1 s' t ts h1 ht h ih =>
      obtain ⟨a1, a2, a3, -⟩ := one_frame h1 ht hw (hf f (by simp))
      obtain ⟨b1, b2, b3, b4⟩ := ih a3 fun g hg => hf g (by simp [hg])
      refine ⟨?_, by simp [b2], by rw [b3, ht]; simp, ?_⟩
      · intro u hu
        rcases List.mem_cons.1 hu with rfl | hu
        · exact a1
        · exact b1 u hu
      · intro k g u hg hu
        cases k with
        | zero => cases hg; cases hu; exact a2
        | succ k => exact b4 k g u (by simpa using hg) (by simpa using hu)

/-- C133, the part that holds: print any frames one after the other, on a stream with any formatting
and no width pending. If no header name, header value or debug data of theirs has a line that starts
with an equals sign, then the lines of the log that start with `=== ` are exactly the first lines of
the frames: there is one for each frame, it is the title of that frame, and what comes before it is
the texts of the frames before. Missing: frames with such a line in a header or in debug data, see
`C133_forged_violated`. -/
theorem C133_titles_partial [Platform] (fs : List Frame) (s s' : OStream) (ts : List Bytes)
    (h : Logs fs s ts s') (hw : s.fmt.width = 0) (hf : ∀ f ∈ fs, NoForgedTitle f) :
    ts.length = fs.length ∧ s'.out = s.out ++ ts.flatten ∧
    (∀ (k : Nat) f t, fs[k]? = some f → ts[k]? = some t → title f ++ [10] <+: t ∧ t.getLast? = some 10) ∧
    ∀ a b, ts.flatten = a ++ b →
      (LineStarts a ∧ ascii "=== " <+: b ↔ ∃ k < fs.length, a = (ts.take k).flatten) := by
  obtain ⟨h1, h2, h3, h4⟩ := logs_frames h hw hf
  refine ⟨h2, h3, fun k f t hk ht => ⟨h4 k f t hk ht, ?_⟩, fun a b e => ?_⟩
  · exact (h1 t (List.mem_of_getElem? ht)).ends.2
  · rw [← h2]
    exact cuts h1 a b e

/-- C133, the part that holds, for two logs: if the same text was printed, on whatever streams, then
the same number of frames was printed, and one by one they have the same text. Missing: as in
`C133_titles_partial`. -/
theorem C133_texts_partial [Platform] (fs gs : List Frame) (s1 s1' s2 s2' : OStream)
    (ts us : List Bytes) (h1 : Logs fs s1 ts s1') (h2 : Logs gs s2 us s2') (hw1 : s1.fmt.width = 0)
    (hw2 : s2.fmt.width = 0) (hf : ∀ f ∈ fs, NoForgedTitle f) (hg : ∀ g ∈ gs, NoForgedTitle g)
    (e : ts.flatten = us.flatten) : ts = us ∧ fs.length = gs.length := by
  obtain ⟨a1, a2, -⟩ := logs_frames h1 hw1 hf
  obtain ⟨b1, b2, -⟩ := logs_frames h2 hw2 hg
  have := texts_same a1 b1 e
  exact ⟨this, by rw [← a2, ← b2, this]⟩

/-- C133, the part that holds, for the frames themselves: on a stream that is not left-adjusted and
has no width pending, two lists of frames shown in full that give the same log are the same list.
Missing: frames with a header block and GOAWAY, the text of which does not say everything
(`C76_headers_violated`, `C76_goaway_violated`), and left-adjusted streams (`C132_left_violated`). -/
theorem C133_frames_partial [Platform] (fs gs : List Frame) (s s1 s2 : OStream)
    (ts us : List Bytes) (h1 : Logs fs s ts s1) (h2 : Logs gs s us s2) (hw : s.fmt.width = 0)
    (hl : s.fmt.left = false) (hf : ∀ f ∈ fs, ShownInFull f) (hg : ∀ g ∈ gs, ShownInFull g)
    (e : s1.out = s2.out) : fs = gs ∧ s1 = s2 := by
  have free : ∀ f, ShownInFull f → NoForgedTitle f := by
    intro f h
    cases f <;> first | exact trivial | exact h.elim
  have e' : ts = us := by
    obtain ⟨-, -, a, -⟩ := logs_frames h1 hw fun f h => free f (hf f h)
    obtain ⟨-, -, b, -⟩ := logs_frames h2 hw fun g h => free g (hg g h)
    rw [a, b] at e
    exact (C133_texts_partial fs gs s s1 s s2 ts us h1 h2 hw hw (fun f h => free f (hf f h))
      (fun g h => free g (hg g h)) (List.append_cancel_left e)).1
  clear e
  subst e'
  induction h1 generalizing gs with
  | nil s => cases h2; exact ⟨rfl, rfl⟩
  | cons f fs s t1 s1 t ts p1 q1 r1 ih =>
      cases h2 with
      | cons g gs _ t2 _ _ _ p2 q2 r2 =>
          obtain ⟨-, -, w1, l1⟩ := one_frame p1 q1 hw (free f (hf f (by simp)))
          have : ∀ {f t1}, f.print s = .ok t1 → t1.out = s.out ++ t → printedOn f s = .ok t := by
            intro f t1 p q
            unfold printedOn
            rw [p, Res.ok_bind, q]
            simp
          have hfg := C132_identifies_partial f g s t (hf f (by simp)) (hg g (by simp)) (Or.inl hl)
            (this p1 q1) (this p2 q2)
          subst hfg
          rw [p1] at p2
          cases p2
          obtain ⟨a, b⟩ := ih gs w1 (by rw [l1]; exact hl) (fun f h => hf f (by simp [h]))
            (fun g h => hg g (by simp [h])) r2
          exact ⟨by rw [a], b⟩

theorem clean_no_title {es : HeaderBlock} (h : CleanBlock es) : NoTitleInBlock es := by
  intro e he x hx
  obtain ⟨-, h1, h2⟩ := h e he x hx
  exact ⟨fun hi => h1 (hi.subset (by simp)), fun hi => h2 (hi.subset (by simp))⟩

theorem readable_free {f : Frame} (h : Readable f) : NoForgedTitle f := by
  cases f with
  | headers f => exact clean_no_title h
  | pushPromise f => exact clean_no_title h
  | continuation f => exact clean_no_title h
  | goaway f => exact h
  | _ => trivial

/-- Two frames with the same text agree in what is shown, and leave the stream the same. -/
theorem same_shown [Platform] {f g : Frame} {s s1 s2 : OStream} {t : Bytes} (hf : Readable f)
    (hg : Readable g) (hw : s.fmt.width = 0) (hl : s.fmt.left = false) (p1 : f.print s = .ok s1)
    (q1 : s1.out = s.out ++ t) (p2 : g.print s = .ok s2) (q2 : s2.out = s.out ++ t) :
    SameShown f g ∧ s1 = s2 := by
  have on : ∀ {f t1}, f.print s = .ok t1 → t1.out = s.out ++ t → printedOn f s = .ok t := by
    intro f t1 p q
    unfold printedOn
    rw [p, Res.ok_bind, q]
    simp
  have h1 := on p1 q1
  have h2 := on p2 q2
  have hc := title_class (drop_width h1 h2).1
  have next : (PrintsOctets f ↔ PrintsOctets g) → (∀ d, f ≠ .data d) → (∀ d, g ≠ .data d) →
      s1 = s2 := by
    intro ho hd1 hd2
    obtain ⟨a1, a2⟩ := C130_formatting_partial f s s1 p1 fun d e => absurd e (hd1 d)
    obtain ⟨b1, b2⟩ := C130_formatting_partial g s s2 p2 fun d e => absurd e (hd2 d)
    have hfmt : s1.fmt = s2.fmt := by
      by_cases h : PrintsOctets f
      · rw [a2 h, b2 (ho.1 h)]
      · rw [a1 h, b1 (mt ho.2 h)]
    have hout : s1.out = s2.out := by rw [q1, q2]
    cases s1; cases s2
    simp only at hfmt hout
    rw [hfmt, hout]
  have full : ShownInFull f → ShownInFull g → SameShown f f → SameShown f g ∧ s1 = s2 := by
    intro a b r
    have e := C132_identifies_partial f g s t a b (Or.inl hl) h1 h2
    subst e
    rw [p1] at p2
    exact ⟨r, Res.ok.inj p2⟩
  cases f with
  | headers f =>
      cases g with
      | headers g =>
          obtain ⟨r1, r2, r3, r4⟩ := C132_headers_partial f g s t hf hg h1 h2
          refine ⟨⟨r1, r2, r3, r4 hl⟩, next ?_ (by simp) (by simp)⟩
          change (_ ∧ _) ↔ (_ ∧ _)
          rw [← r1]
          exact ⟨fun h => ⟨h.1, (r4 hl h.1) ▸ h.2⟩, fun h => ⟨h.1, (r4 hl h.1) ▸ h.2⟩⟩
      | _ => simp [rfcType] at hc
  | pushPromise f =>
      cases g with
      | pushPromise g =>
          obtain ⟨r1, r2, r3, r4, r5⟩ := C132_push_promise_partial f g s t hf hg h1 h2
          refine ⟨⟨r1, r2, r3, r4, r5 hl⟩, next ?_ (by simp) (by simp)⟩
          change (_ ∧ _) ↔ (_ ∧ _)
          rw [← r1]
          exact ⟨fun h => ⟨h.1, (r5 hl h.1) ▸ h.2⟩, fun h => ⟨h.1, (r5 hl h.1) ▸ h.2⟩⟩
      | _ => simp [rfcType] at hc
  | continuation f =>
      cases g with
      | continuation g =>
          rw [same_as_fresh s hw (by simp) (by simp [PrintsOctets]) (by simp [HasSettings])] at h1 h2
          exact ⟨C76_continuation_partial f g _ t hf hg h1 h2, next Iff.rfl (by simp) (by simp)⟩
      | _ => simp [rfcType] at hc
  | goaway f =>
      cases g with
      | goaway g =>
          rw [same_as_fresh s hw (by simp) (by simp [PrintsOctets]) (by simp [HasSettings])] at h1 h2
          exact ⟨(C76_goaway_exact_partial f g _ t t h1 h2).1 rfl, next Iff.rfl (by simp) (by simp)⟩
      | _ => simp [rfcType] at hc
  | data f => cases g <;> first | (simp [rfcType] at hc; done) | exact full hf hg rfl
  | priority f => cases g <;> first | (simp [rfcType] at hc; done) | exact full hf hg rfl
  | rstStream f => cases g <;> first | (simp [rfcType] at hc; done) | exact full hf hg rfl
  | settings f => cases g <;> first | (simp [rfcType] at hc; done) | exact full hf hg rfl
  | ping f => cases g <;> first | (simp [rfcType] at hc; done) | exact full hf hg rfl
  | windowUpdate f => cases g <;> first | (simp [rfcType] at hc; done) | exact full hf hg rfl
  | raw f => cases g <;> first | (simp [rfcType] at hc; done) | exact full hf hg rfl

/-- C133, the part that holds, for frames of every class: on a stream that is not left-adjusted and
has no width pending, two lists of readable frames that give the same log have the same length, and
one by one their frames agree in everything that is shown. Missing: header blocks with newlines, and
debug data with a line that looks like a title, see `C133_forged_violated`; left-adjusted streams, see
`C132_left_violated`; what is not shown, see `C76_goaway_violated`. -/
theorem C133_shown_partial [Platform] (fs gs : List Frame) (s s1 s2 : OStream)
    (ts us : List Bytes) (h1 : Logs fs s ts s1) (h2 : Logs gs s us s2) (hw : s.fmt.width = 0)
    (hl : s.fmt.left = false) (hf : ∀ f ∈ fs, Readable f) (hg : ∀ g ∈ gs, Readable g)
    (e : s1.out = s2.out) : List.Forall₂ SameShown fs gs ∧ s1 = s2 := by
  have e' : ts = us := by
    obtain ⟨-, -, a, -⟩ := logs_frames h1 hw fun f h => readable_free (hf f h)
    obtain ⟨-, -, b, -⟩ := logs_frames h2 hw fun g h => readable_free (hg g h)
    rw [a, b] at e
    exact (C133_texts_partial fs gs s s1 s s2 ts us h1 h2 hw hw (fun f h => readable_free (hf f h))
      (fun g h => readable_free (hg g h)) (List.append_cancel_left e)).1
  clear e
  subst e'
  induction h1 generalizing gs with
  | nil s => cases h2; exact ⟨.nil, rfl⟩
  | cons f fs s t1 s1 t ts p1 q1 r1 ih =>
      cases h2 with
      | cons g gs _ t2 _ _ _ p2 q2 r2 =>
          obtain ⟨-, -, w1, l1⟩ := one_frame p1 q1 hw (readable_free (hf f (by simp)))
          obtain ⟨hs, e⟩ := same_shown (hf f (by simp)) (hg g (by simp)) hw hl p1 q1 p2 q2
          subst e
          obtain ⟨a, b⟩ := ih gs w1 (by rw [l1]; exact hl) (fun f h => hf f (by simp [h]))
            (fun g h => hg g (by simp [h])) r2
          exact ⟨.cons hs a, b⟩

/-- Printing as the sample does it makes a log. -/
theorem logs_of_prints [Platform] {fs : List Frame} {s s' : Stream} (h : Prints fs s s')
    {o : OStream} (ho : Describes s o) : ∃ ts o', Logs fs o ts o' ∧ Describes s' o' := by
  induction h generalizing o with
  | nil s => exact ⟨[], o, .nil o, ho⟩
  | cons f fs s s1 s' h1 h ih =>
      have ha := C131_models_agree f s o ho
      rw [h1] at ha
      cases hp : f.print o with
      | ok o1 =>
          rw [hp] at ha
          obtain ⟨ts, o', h2, h3⟩ := ih ha
          obtain ⟨l, h4, rfl⟩ := print_eq_ok hp
          obtain ⟨m, rfl⟩ := outs_head h4
          obtain ⟨u, e1, -⟩ := segs_same (segs_tail (segs_frame h4))
            (o.put (text (title f ++ [10]))) (o.put (text (title f ++ [10])))
            rfl rfl (fun _ => ⟨rfl, rfl, rfl⟩) (fun _ => ⟨rfl, rfl, rfl⟩)
          refine ⟨_, o', .cons f fs o _ o' (title f ++ [10] ++ u) ts hp ?_ h2, h3⟩
          rw [puts_cons, e1]
          simp [OStream.put, pad_zero _ ho.width]
      | throw e => rw [hp] at ha; exact ha.elim
      | ub u => rw [hp] at ha; exact ha.elim
      | diverge => rw [hp] at ha; exact ha.elim

/-- C133 for the sample program: a run that ends normally received some frames, two at least, and
printed their texts one after the other; if no header or debug data among them has a line that starts
with an equals sign, then the lines of its output that start with `=== ` count those frames and stand
before the text of each. Missing: as in `C133_titles_partial`. -/
theorem C133_sample_partial [Platform] (conn : Conn) (s' : Sample.State)
    (h : Sample.main ⟨Client.new conn, ⟨[], false⟩⟩ = (.ok (), s')) :
    ∃ (fs : List Frame) (c : Client), Received (Client.new conn) fs c ∧ 2 ≤ fs.length ∧
      ((∀ f ∈ fs, NoForgedTitle f) →
        ∃ ts : List Bytes, s'.cout.out = ts.flatten ∧ ts.length = fs.length ∧
          (∀ (k : Nat) f t, fs[k]? = some f → ts[k]? = some t → title f ++ [10] <+: t) ∧
          ∀ a b, s'.cout.out = a ++ b →
            (LineStarts a ∧ ascii "=== " <+: b ↔ ∃ k < fs.length, a = (ts.take k).flatten)) := by
  obtain ⟨first, gs, g, c, h1, h2, -⟩ := Sample.C72_normal_run conn _ s' h
  refine ⟨_, c, h1, by simp, fun hf => ?_⟩
  obtain ⟨ts, o', h3, h4⟩ := logs_of_prints h2 (o := ⟨[], Format.initial⟩) (by constructor <;> rfl)
  obtain ⟨a1, a2, a3, a4⟩ := C133_titles_partial _ _ _ _ h3 rfl hf
  have e : s'.cout.out = ts.flatten := by rw [← h4.out, a2]; rfl
  exact ⟨ts, e, a1, fun k f t hk ht => (a3 k f t hk ht).1, fun a b hab => a4 a b (by rw [← e, hab])⟩

attribute [local instance] x86 in
/-- Non-vacuity of `C133_sample_partial`: the server sends SETTINGS and DATA that look like a title
(`=== x`), and the run ends normally. -/
example : (Sample.main ⟨Client.new ⟨[0, 0, 0, 4, 0, 0, 0, 0, 0, 0, 0, 5, 0, 1, 0, 0, 0, 1] ++
      ascii "=== x", [], [9, 9, 9], [100, 100, 100, 100, 100]⟩, ⟨[], false⟩⟩).1 = .ok () := by
  decide +kernel

/-- A PING, a DATA frame and a CONTINUATION frame with a header. -/
def logged : List Frame := [.ping ⟨⟨8, 6, 0, 0, 0⟩, [1, 2, 3, 4, 5, 6, 7, 61]⟩,
  .data (DataFrame.new 0 1 (ascii "a\n=== b")),
  .continuation ⟨[], ⟨3, 9, 4, 0, 1⟩, [⟨.incrementalIndexing, .header (ascii "a", ascii "== b")⟩]⟩]

/-- Texts of frames printed in a row. -/
theorem logs_make [Platform] (fs : List Frame) (s s' : OStream)
    (h : fs.foldlM (fun s f => Frame.print f s) s = .ok s') (hw : s.fmt.width = 0) :
    ∃ ts, Logs fs s ts s' := by
  induction fs generalizing s with
  | nil => cases h; exact ⟨[], .nil _⟩
  | cons f fs ih =>
      rw [List.foldlM_cons] at h
      obtain ⟨s1, h1, h2⟩ := Res.bind_eq_ok.1 h
      obtain ⟨l, h4, e⟩ := print_eq_ok h1
      obtain ⟨m, rfl⟩ := outs_head h4
      have h3 := segs_tail (segs_frame h4)
      obtain ⟨u, e1, -⟩ := segs_same h3
        (s.put (text (title f ++ [10]))) (s.put (text (title f ++ [10])))
        rfl rfl (fun _ => ⟨rfl, rfl, rfl⟩) (fun _ => ⟨rfl, rfl, rfl⟩)
      have hw1 : s1.fmt.width = 0 := by
        rw [e, puts_cons, segs_format h3 _ rfl]; rfl
      obtain ⟨ts, ht⟩ := ih s1 h2 hw1
      refine ⟨_, .cons f fs s s1 s' (title f ++ [10] ++ u) ts h1 ?_ ht⟩
      rw [e, puts_cons, e1]
      simp [OStream.put, pad_zero _ hw]

attribute [local instance] x86 in
/-- Non-vacuity of `C133_titles_partial`, `C133_texts_partial` and `C133_shown_partial`, and of
`C133_frames_partial` for the first two frames: the frames are printed on a stream in upper case with
base prefixes. -/
example : (∃ ts s', Logs logged ⟨[], ⟨.oct, true, true, false, 42, 0⟩⟩ ts s') ∧
    (∀ f ∈ logged, NoForgedTitle f) ∧ (∀ f ∈ logged, Readable f) ∧
    ∀ f ∈ logged.take 2, ShownInFull f := by
  have clean : CleanBlock [⟨.incrementalIndexing, .header (ascii "a", ascii "== b")⟩] := by
    intro e he h hh
    simp only [List.mem_cons, List.not_mem_nil, or_false] at he
    subst he
    cases hh
    decide
  refine ⟨?_, ?_, ?_, ?_⟩
  · have : ∃ s', logged.foldlM (fun s f => Frame.print f s) ⟨[], ⟨.oct, true, true, false, 42, 0⟩⟩ =
        .ok s' := by
      have hk : (match logged.foldlM (fun s f => Frame.print f s)
          ⟨[], ⟨.oct, true, true, false, 42, 0⟩⟩ with
        | .ok _ => true
        | _ => false) = true := by decide +kernel
      split at hk
      · rename_i s' h; exact ⟨s', h⟩
      · cases hk
    obtain ⟨s', h⟩ := this
    obtain ⟨ts, ht⟩ := logs_make _ _ _ h rfl
    exact ⟨ts, s', ht⟩
  · intro f hf
    simp only [logged, List.mem_cons, List.not_mem_nil, or_false] at hf
    rcases hf with rfl | rfl | rfl
    · trivial
    · trivial
    · exact clean_no_title clean
  · intro f hf
    simp only [logged, List.mem_cons, List.not_mem_nil, or_false] at hf
    rcases hf with rfl | rfl | rfl
    · trivial
    · exact ⟨rfl, by decide⟩
    · exact clean
  · intro f hf
    simp only [logged, List.take_succ_cons, List.take_zero, List.mem_cons, List.not_mem_nil,
      or_false] at hf
    rcases hf with rfl | rfl
    · trivial
    · exact ⟨rfl, by decide⟩

/-- Debug data that goes on like a log. -/
def forgedDebug : Bytes := ascii ("x\n=== SETTINGS FRAME ===\n[Frame Header]\n  length    : 0\n" ++
  "  type      : 4\n  flags     : 0\n  reserved  : 0\n  stream id : 0\n[PAYLOAD]") ++ [0]

/-- Debug data of the same length that does not. -/
def plainDebug : Bytes := ascii "x" ++ List.replicate 129 0

/-- The header of both GOAWAY frames. -/
def forgedHeader : FrameHeader := ⟨138, 7, 0, 0, 0⟩

/-- C133 is false of the code: there are a GOAWAY frame whose debug data has lines that look like a
SETTINGS frame, and another GOAWAY frame, both as they are received, such that printing the first
alone and printing the second and then a SETTINGS frame give the same log. -/
theorem C133_forged_violated [P : Platform] :
    ∃ (raw1 raw2 : Bytes) (fh : FrameHeader) (f g g' : Frame) (s' : OStream) (ts us : List Bytes),
      fh.length.toNat = raw1.length ∧ fh.length.toNat = raw2.length ∧
      buildFrame fh raw1 .default = .ok f ∧ buildFrame fh raw2 .default = .ok g ∧
      buildFrame ⟨0, 4, 0, 0, 0⟩ [] .default = .ok g' ∧
      Logs [f] ⟨[], Format.initial⟩ ts s' ∧ Logs [g, g'] ⟨[], Format.initial⟩ us s' := by
  have h : ∃ s', [Frame.goaway ⟨forgedHeader, ⟨0, 1, 0, forgedDebug⟩⟩].foldlM
        (fun s f => Frame.print f s) ⟨[], Format.initial⟩ = .ok s' ∧
      [Frame.goaway ⟨forgedHeader, ⟨0, 1, 0, plainDebug⟩⟩, .settings ⟨⟨0, 4, 0, 0, 0⟩, []⟩].foldlM
        (fun s f => Frame.print f s) ⟨[], Format.initial⟩ = .ok s' := by
    refine ⟨⟨startText (.goaway ⟨forgedHeader, ⟨0, 1, 0, plainDebug⟩⟩) ++
      (goawayText ⟨0, 1, 0, plainDebug⟩ (ascii "x") ++
        startText (.settings ⟨⟨0, 4, 0, 0, 0⟩, []⟩)), Format.initial⟩, ?_, ?_⟩
    · rcases P with ⟨_ | _, _ | _⟩ <;> decide +kernel
    · rcases P with ⟨_ | _, _ | _⟩ <;> decide +kernel
  obtain ⟨s', h1, h2⟩ := h
  obtain ⟨ts, h3⟩ := logs_make _ _ _ h1 rfl
  obtain ⟨us, h4⟩ := logs_make _ _ _ h2 rfl
  refine ⟨[0, 0, 0, 1, 0, 0, 0, 0] ++ forgedDebug, [0, 0, 0, 1, 0, 0, 0, 0] ++ plainDebug,
    forgedHeader, _, _, _, s', ts, us, ?_, ?_, ?_, ?_, ?_, h3, h4⟩
  · decide +kernel
  · decide +kernel
  · rcases P with ⟨_ | _, _ | _⟩ <;> decide +kernel
  · rcases P with ⟨_ | _, _ | _⟩ <;> decide +kernel
  · rcases P with ⟨_ | _, _ | _⟩ <;> decide +kernel

end Mh2c
