/-
Table invariants over client operations; where a null dereference can come from.
-/
import Verif.Proofs.Client
import Verif.Proofs.Settings
import Verif.Spec.Session

namespace Mh2c

open Rfc DynamicTable

/-! ### No null dereference in building -/

/-- The outcome is not a null dereference. -/
def NoNull {α : Type} (x : Res α) : Prop := x ≠ .ub .nullDeref

theorem NoNull.bind {α β : Type} {x : Res α} {f : α → Res β} (hx : NoNull x)
    (hf : ∀ a, NoNull (f a)) : NoNull (x >>= f) := by
  cases x with
  | ok a => exact hf a
  | throw e => simp [NoNull]
  | ub k =>
      intro h
      rw [Res.ub_bind] at h
      injection h with h
      exact hx (by rw [h])
  | diverge => simp [NoNull]

theorem noNull_ok {α : Type} (a : α) : NoNull (Res.ok a) := by simp [NoNull]
theorem noNull_pure {α : Type} (a : α) : NoNull (pure a : Res α) := by simp [NoNull]
theorem noNull_throw {α : Type} (e : Exc) : NoNull (Res.throw e : Res α) := by simp [NoNull]
theorem noNull_ub {α : Type} {k : Ub} (h : k ≠ .nullDeref) : NoNull (Res.ub k : Res α) := by
  simpa [NoNull] using h

theorem noNull_front (v : Bytes) : NoNull (front v) := by cases v <;> simp [front, NoNull]
theorem noNull_readAt (v : Bytes) (i : Nat) : NoNull (readAt v i) := by
  unfold readAt; split <;> simp [NoNull]
theorem noNull_eraseFirst (n : Nat) (v : Bytes) : NoNull (eraseFirst n v) := by
  unfold eraseFirst; split <;> simp [NoNull]
theorem noNull_copyRange (v : Bytes) (i n : Nat) : NoNull (copyRange v i n) := by
  unfold copyRange; split <;> simp [NoNull]
theorem noNull_addressRange [Platform] (v : Bytes) (i n : Nat) : NoNull (addressRange v i n) := by
  unfold addressRange
  split
  · split <;> simp [NoNull]
  · simp [NoNull]

theorem noNull_bytes2integral (size : Nat) (v : Bytes) : NoNull (bytes2integral size v) := by
  unfold bytes2integral
  have : ∀ left (v : Bytes) acc, NoNull (bytes2integralLoop size left v acc) := by
    intro left
    induction left with
    | zero => intro v acc; exact noNull_ok _
    | succ left ih =>
        intro v acc
        cases v with
        | nil => exact noNull_ub (by decide)
        | cons b bs =>
            rw [bytes2integralLoop]
            refine NoNull.bind ?_ (fun _ => ih _ _)
            unfold shlInt; split <;> simp [NoNull]
  exact this _ _ _

theorem noNull_decodeIntLoop (v : Bytes) (m acc : Nat) : NoNull (decodeIntLoop v m acc) := by
  induction v generalizing m acc with
  | nil => exact noNull_ub (by decide)
  | cons b bs ih =>
      rw [decodeIntLoop]
      split
      · exact noNull_ub (by decide)
      · split
        · exact noNull_ub (by decide)
        · simp only
          split
          · exact ih _ _
          · exact noNull_ok _

theorem noNull_decodeIntWithLength (n : Nat) (v : Bytes) : NoNull (decodeIntWithLength n v) := by
  unfold decodeIntWithLength
  refine NoNull.bind ?_ (fun _ => noNull_pure _)
  cases v with
  | nil => exact noNull_ub (by decide)
  | cons b bs =>
      rw [decodeIntegerValue]
      split
      · exact noNull_ok _
      · exact noNull_decodeIntLoop _ _ _

theorem noNull_decode (v : Bytes) : NoNull (Huffman.decode v) := by
  rcases decode_spec v with ⟨syms, rest, -, h⟩ | ⟨-, h⟩ <;> rw [h] <;> simp [NoNull]

theorem noNull_decodeHeaderString [Platform] (v : Bytes) : NoNull (decodeHeaderString v) := by
  unfold decodeHeaderString
  refine NoNull.bind (noNull_decodeIntWithLength 7 v) ?_
  rintro ⟨length, intLength⟩
  refine NoNull.bind (noNull_front v) (fun first => ?_)
  simp only
  split
  · refine NoNull.bind (noNull_copyRange _ _ _) (fun d => NoNull.bind (noNull_decode _) (fun d' =>
      NoNull.bind (noNull_addressRange _ _ _) (fun _ => noNull_pure _)))
  · exact NoNull.bind (noNull_addressRange _ _ _) (fun _ => noNull_pure _)

theorem noNull_decodeLiteral [Platform] (v : Bytes) (p : HeaderPrefix) (ih : Header) (n : Nat) :
    NoNull (decodeLiteral v p ih n) := by
  unfold decodeLiteral
  refine NoNull.bind (noNull_eraseFirst _ _) (fun d => ?_)
  split
  · refine NoNull.bind (noNull_decodeHeaderString _) ?_
    rintro ⟨name, nl⟩
    refine NoNull.bind (noNull_eraseFirst _ _) (fun d' => ?_)
    refine NoNull.bind (noNull_decodeHeaderString _) ?_
    rintro ⟨value, vl⟩
    exact NoNull.bind (noNull_eraseFirst _ _) (fun _ => noNull_pure _)
  · refine NoNull.bind (noNull_decodeHeaderString _) ?_
    rintro ⟨value, vl⟩
    exact NoNull.bind (noNull_eraseFirst _ _) (fun _ => noNull_pure _)

theorem noNull_makeIndexedHeader (i : Nat) (table : DynamicTable) :
    NoNull (makeIndexedHeader i table) := by
  unfold makeIndexedHeader DynamicTable.atPos staticTableAt
  split
  · split <;> simp [NoNull]
  · split <;> simp [NoNull]

theorem noNull_decodeHeader [Platform] (v : Bytes) (table : DynamicTable) :
    NoNull (decodeHeader v table) := by
  unfold decodeHeader
  refine NoNull.bind (noNull_front v) (fun first => ?_)
  rw [checkPrefix_eq, Res.ok_bind]
  by_cases hp : prefixClass first.toNat = .sizeUpdate
  · rw [if_pos hp]
    exact NoNull.bind (noNull_decodeIntWithLength 5 v) (fun _ => noNull_pure _)
  · rw [if_neg hp, decodeIndex_eq hp]
    refine NoNull.bind (noNull_decodeIntWithLength _ v) ?_
    rintro ⟨index, il⟩
    have key : ∀ ih : Header, NoNull (if prefixClass first.toNat = .indexed then
        pure (HeaderEntry.ofHeader (prefixClass first.toNat) ih, il)
        else decodeLiteral v (prefixClass first.toNat) ih il) := by
      intro ih
      split
      · exact noNull_pure _
      · exact noNull_decodeLiteral _ _ _ _
    simp only
    split
    · exact NoNull.bind (noNull_makeIndexedHeader _ _) key
    · exact key _

theorem noNull_decodeHeaderBlock [Platform] (v : Bytes) (table : DynamicTable) :
    NoNull (decodeHeaderBlock v table) := by
  induction hn : v.length using Nat.strong_induction_on generalizing v with
  | _ k ih =>
    by_cases hv : v = []
    · subst hv; rw [decodeHeaderBlock_nil]; exact noNull_ok _
    · rw [decodeHeaderBlock_eq hv]
      cases h : decodeHeader v table with
      | throw e => exact noNull_throw _
      | ub k =>
          have := noNull_decodeHeader v table
          rw [h] at this
          intro hc
          rw [Res.ub_bind] at hc
          injection hc with hc
          exact this (by rw [hc])
      | diverge => simp [NoNull]
      | ok p =>
          obtain ⟨e, n⟩ := p
          have hb := decodeHeader_bounds h
          rw [Res.ok_bind]
          exact NoNull.bind (ih (v.drop n).length (by simp; omega) _ rfl) (fun _ => noNull_pure _)

theorem noNull_extractPadding (flags : UInt8) (raw : Bytes) : NoNull (extractPadding flags raw) := by
  unfold extractPadding
  split
  · refine NoNull.bind (noNull_front _) (fun p => ?_)
    split
    · exact noNull_ub (by decide)
    · exact NoNull.bind (noNull_eraseFirst _ _) (fun _ => noNull_pure _)
  · exact noNull_ok _

theorem noNull_extractPriority (flags : UInt8) (raw : Bytes) :
    NoNull (extractPriority flags raw) := by
  unfold extractPriority
  split
  · exact NoNull.bind (noNull_copyRange _ _ _) fun _ => NoNull.bind (noNull_readAt _ _) fun _ =>
      NoNull.bind (noNull_bytes2integral _ _) fun _ => NoNull.bind (noNull_eraseFirst _ _) fun _ =>
      NoNull.bind (noNull_front _) fun _ => NoNull.bind (noNull_eraseFirst _ _) fun _ => noNull_pure _
  · exact noNull_ok _

theorem noNull_headers_ofRaw [Platform] (fh : FrameHeader) (raw : Bytes) (table : DynamicTable) :
    NoNull (HeadersFrame.ofRaw fh raw table) := by
  unfold HeadersFrame.ofRaw
  refine NoNull.bind (noNull_extractPadding _ _) ?_
  rintro ⟨_, rest⟩
  refine NoNull.bind (noNull_extractPriority _ _) ?_
  rintro ⟨_, rest'⟩
  exact NoNull.bind (noNull_decodeHeaderBlock _ _) fun _ => noNull_pure _

theorem noNull_resizeRev (es : List Header) (cur max : Nat) : NoNull (resizeRev es cur max) := by
  induction es generalizing cur with
  | nil => unfold resizeRev; split <;> simp [NoNull]
  | cons h hs ih =>
      unfold resizeRev
      split
      · exact ih _
      · exact noNull_ok _

theorem noNull_push (t : DynamicTable) (h : Header) : NoNull (t.push h) := by
  unfold push resize
  exact NoNull.bind (NoNull.bind (noNull_resizeRev _ _ _) fun _ => noNull_pure _) fun _ => noNull_pure _

theorem noNull_updateTableSize (t : DynamicTable) (n : Nat) : NoNull (t.updateTableSize n) := by
  unfold updateTableSize resize
  exact NoNull.bind (NoNull.bind (noNull_resizeRev _ _ _) fun _ => noNull_pure _) fun _ => noNull_pure _

theorem resizeRev_ne_diverge (es : List Header) (cur max : Nat) :
    resizeRev es cur max ≠ .diverge := by
  induction es generalizing cur with
  | nil => unfold resizeRev; split <;> simp
  | cons h hs ih =>
      unfold resizeRev
      split
      · exact ih _
      · simp

theorem push_ne_diverge (t : DynamicTable) (h : Header) : t.push h ≠ .diverge := by
  unfold push resize
  exact bind_ne_diverge (bind_ne_diverge (resizeRev_ne_diverge _ _ _) fun _ _ => by simp)
    fun _ _ => by simp

theorem updateTableSize_ne_diverge (t : DynamicTable) (n : Nat) : t.updateTableSize n ≠ .diverge := by
  unfold updateTableSize resize
  exact bind_ne_diverge (bind_ne_diverge (resizeRev_ne_diverge _ _ _) fun _ _ => by simp)
    fun _ _ => by simp

theorem updateEntry_ne_diverge (e : HeaderEntry) (t : DynamicTable) :
    updateDynamicTableEntry e t ≠ .diverge := by
  unfold updateDynamicTableEntry HeaderEntry.getHeader HeaderEntry.getMaxSize
  split
  · refine bind_ne_diverge ?_ fun _ _ => push_ne_diverge _ _
    split <;> simp
  · split
    · refine bind_ne_diverge ?_ fun _ _ => updateTableSize_ne_diverge _ _
      split <;> simp
    · simp

theorem noNull_updateEntry (e : HeaderEntry) (t : DynamicTable) :
    NoNull (updateDynamicTableEntry e t) := by
  unfold updateDynamicTableEntry HeaderEntry.getHeader HeaderEntry.getMaxSize
  split
  · refine NoNull.bind ?_ fun _ => noNull_push _ _
    split <;> simp [NoNull]
  · split
    · refine NoNull.bind ?_ fun _ => noNull_updateTableSize _ _
      split <;> simp [NoNull]
    · exact noNull_ok _

theorem noNull_updateDynamicTable (es : HeaderBlock) (t : DynamicTable) :
    NoNull (updateDynamicTable es t).1 := by
  induction es generalizing t with
  | nil => exact noNull_ok _
  | cons e es ih =>
      unfold updateDynamicTable
      have := noNull_updateEntry e t
      cases h : updateDynamicTableEntry e t with
      | ok t' => exact ih t'
      | throw e => exact noNull_throw _
      | ub k => rw [h] at this; intro hc; exact this (by injection hc with hc; rw [hc])
      | diverge => simp [NoNull]

theorem updateDynamicTable_ne_diverge (es : HeaderBlock) (t : DynamicTable) :
    (updateDynamicTable es t).1 ≠ .diverge := by
  induction es generalizing t with
  | nil => simp [updateDynamicTable]
  | cons e es ih =>
      unfold updateDynamicTable
      cases h : updateDynamicTableEntry e t with
      | ok t' => exact ih t'
      | throw e => simp
      | ub k => simp
      | diverge => exact absurd h (updateEntry_ne_diverge e t)

theorem updateFrame_ne_diverge (f : Frame) (t : DynamicTable) :
    (updateDynamicTableFrame f t).1 ≠ .diverge := by
  unfold updateDynamicTableFrame
  split
  · split
    · exact updateDynamicTable_ne_diverge _ _
    · simp
  · split
    · exact updateDynamicTable_ne_diverge _ _
    · simp
  · split
    · exact updateDynamicTable_ne_diverge _ _
    · simp
  · split
    · split
      · rename_i size _
        cases h : t.updateTableSize size.toNat with
        | ok t' => simp
        | throw e => simp
        | ub k => simp
        | diverge => exact absurd h (updateTableSize_ne_diverge t _)
      · simp
    · simp
  · simp

/-! ### A frame at the front of the stream -/

theorem front_frame (type flags : UInt8) (sid : UInt32) (payload rest : Bytes)
    (hl : payload.length < 2 ^ 24) (hs : sid.toNat < 2 ^ 31) :
    (frameOctets type flags sid.toNat payload).length = 9 + payload.length ∧
    beValue ((frameOctets type flags sid.toNat payload ++ rest).take 3) = payload.length ∧
    buildFrameHeader ((frameOctets type flags sid.toNat payload ++ rest).take 9) =
      .ok ⟨castToFhLength payload.length, type, flags, 0, sid⟩ ∧
    ((frameOctets type flags sid.toNat payload ++ rest).drop 9).take payload.length = payload ∧
    (frameOctets type flags sid.toNat payload ++ rest).drop (9 + payload.length) = rest := by
  have h9 : (be 3 payload.length ++ [type, flags] ++ be 4 sid.toNat).length = 9 := by simp
  have hdrop : (frameOctets type flags sid.toNat payload ++ rest).drop 9 = payload ++ rest := by
    unfold frameOctets
    rw [List.append_assoc]
    exact List.drop_left' h9
  refine ⟨by unfold frameOctets; rw [List.length_append, h9], ?_, ?_, ?_, ?_⟩
  · unfold frameOctets
    rw [List.append_assoc, List.append_assoc, List.append_assoc, List.take_left' (be_length _ _),
      beValue_be, Nat.mod_eq_of_lt (by omega)]
  · have ht : (frameOctets type flags sid.toNat payload ++ rest).take 9 =
        @FrameHeader.serialize x86 ⟨castToFhLength payload.length, type, flags, 0, sid⟩ ++ [] := by
      rw [@header_serialize x86 _ _ _ _ hl]
      unfold frameOctets
      rw [List.append_assoc, List.append_nil]
      exact List.take_left' h9
    rw [ht, @buildFrameHeader_serialize x86]
    congr 1
    simp only [FrameHeader.mk.injEq, true_and]
    refine ⟨?_, ?_, ?_⟩
    · rw [castToFhLength, UInt32.toNat_ofNat',
        Nat.mod_eq_of_lt (a := payload.length) (b := 2 ^ 32) (by omega), Nat.mod_eq_of_lt hl]
    · rw [Nat.div_eq_of_lt hs]; rfl
    · rw [Nat.mod_eq_of_lt hs]; simp
  · rw [hdrop, List.take_left]
  · rw [← List.drop_drop, hdrop, List.drop_left]

/-! ### The accounting invariant -/

theorem push_inv {t t' : DynamicTable} (ht : t.Inv) {h : Header} (hh : headerSize h < 2 ^ 63)
    (hp : t.push h = .ok t') : t'.Inv ∧ t'.maxTableSize = t.maxTableSize := by
  by_cases hf : headerSize h ≤ t.maxTableSize
  · have := push_fits ht hf
    refine ⟨inv_push ht hf hp, ?_⟩
    rw [this] at hp
    obtain rfl := (Res.ok.inj hp).symm
    rfl
  · rw [push_oversized ht.size (by have := ht.le; have := ht.max; omega) (by omega)] at hp
    cases hp

theorem updateTableSize_inv {t t' : DynamicTable} (ht : t.Inv) {n : Nat} (hn : n < 2 ^ 63)
    (hp : t.updateTableSize n = .ok t') : t'.Inv ∧ t'.maxTableSize = n := by
  refine ⟨inv_updateTableSize ht hn hp, ?_⟩
  rw [updateTableSize_eq ht] at hp
  obtain rfl := (Res.ok.inj hp).symm
  rfl

theorem updateEntry_inv {e : HeaderEntry} {t t' : DynamicTable} {b : Nat} (ht : t.Inv)
    (he : EntrySmall e) (hm : t.maxTableSize ≤ b) (hb : ∀ n, e.entry = .maxSize n → n ≤ b)
    (h : updateDynamicTableEntry e t = .ok t') : t'.Inv ∧ t'.maxTableSize ≤ b := by
  obtain ⟨p, v⟩ := e
  unfold updateDynamicTableEntry HeaderEntry.getHeader HeaderEntry.getMaxSize at h
  simp only at h
  split at h
  · cases v with
    | header x =>
        have := push_inv ht (he.1 x rfl) h
        exact ⟨this.1, by omega⟩
    | maxSize n => cases h
  · split at h
    · cases v with
      | header x => cases h
      | maxSize n =>
          have := updateTableSize_inv ht (he.2 n rfl) h
          exact ⟨this.1, by have := hb n rfl; omega⟩
    · obtain rfl := Res.ok.inj h
      exact ⟨ht, hm⟩

/-- The table left behind satisfies the invariant, whatever the outcome. -/
theorem updateDynamicTable_inv {es : HeaderBlock} {t : DynamicTable} {b : Nat} (ht : t.Inv)
    (he : ∀ e ∈ es, EntrySmall e) (hm : t.maxTableSize ≤ b)
    (hb : ∀ e ∈ es, ∀ n, e.entry = .maxSize n → n ≤ b) :
    (updateDynamicTable es t).2.Inv ∧ (updateDynamicTable es t).2.maxTableSize ≤ b := by
  induction es generalizing t with
  | nil => exact ⟨ht, hm⟩
  | cons e es ih =>
      unfold updateDynamicTable
      cases h : updateDynamicTableEntry e t with
      | ok t' =>
          have := updateEntry_inv ht (he e (by simp)) hm (hb e (by simp)) h
          exact ih this.1 (fun x hx => he x (by simp [hx])) this.2 (fun x hx => hb x (by simp [hx]))
      | throw x => exact ⟨ht, hm⟩
      | ub k => exact ⟨ht, hm⟩
      | diverge => exact ⟨ht, hm⟩

theorem decoded_small {n : Nat} (hn : n < 2 ^ 24) {t : DynamicTable} (ht : t.Inv)
    (hm : t.maxTableSize ≤ 2 ^ 32) {e : HeaderEntry} (h : DecodedEntry n t e) :
    EntrySmall e ∧ ∀ m, e.entry = .maxSize m → m ≤ 2 ^ 32 := by
  have h1 := ht.size
  have h2 := ht.le
  unfold total at h1
  refine ⟨⟨fun x hx => ?_, fun m hx => ?_⟩, fun m hx => ?_⟩
  · have := h.header x hx
    omega
  · have := h.size m hx
    omega
  · have := h.size m hx
    omega

theorem processTable_inv [Platform] {fh : FrameHeader} {raw : Bytes} {t : DynamicTable}
    (hr : raw.length < 2 ^ 24) (ht : t.Inv) (hm : t.maxTableSize ≤ 2 ^ 32) :
    (processTable fh raw t).2.Inv ∧ (processTable fh raw t).2.maxTableSize ≤ 2 ^ 32 := by
  unfold processTable
  cases hb : buildFrame fh raw t with
  | throw e => exact ⟨ht, hm⟩
  | ub k => exact ⟨ht, hm⟩
  | diverge => exact ⟨ht, hm⟩
  | ok f =>
      have hbu := built_of_ok hb
      have key : (updateDynamicTableFrame f t).2.Inv ∧
          (updateDynamicTableFrame f t).2.maxTableSize ≤ 2 ^ 32 := by
        rw [updateFrame_built hbu]
        cases hbu with
        | headers h f hf =>
            exact updateDynamicTable_inv ht
              (fun e he => (decoded_small hr ht hm ((headers_entries hf).2 e he)).1) hm
              (fun e he => (decoded_small hr ht hm ((headers_entries hf).2 e he)).2)
        | pushPromise h f hf =>
            exact updateDynamicTable_inv ht
              (fun e he => (decoded_small hr ht hm ((pushPromise_entries hf).2 e he)).1) hm
              (fun e he => (decoded_small hr ht hm ((pushPromise_entries hf).2 e he)).2)
        | continuation h f hf =>
            exact updateDynamicTable_inv ht
              (fun e he => (decoded_small hr ht hm ((continuation_entries hf).2 e he)).1) hm
              (fun e he => (decoded_small hr ht hm ((continuation_entries hf).2 e he)).2)
        | settings h p hp =>
            simp only
            split
            · rename_i size _
              have hlt := size.toNat_lt
              rw [updateTableSize_eq ht]
              exact ⟨⟨rfl, takeFit_total _ _, by show size.toNat < _; omega⟩,
                by show size.toNat ≤ _; omega⟩
            · exact ⟨ht, hm⟩
        | _ => exact ⟨ht, hm⟩
      simp only
      rcases hu : updateDynamicTableFrame f t with ⟨_ | _ | _ | _, t'⟩ <;> rw [hu] at key <;> exact key

end Mh2c
