/-
C62: exactly when a SETTINGS frame leaves the two tables as RFC 7540 6.5.2 wants them.
-/
import Verif.Props.Client

namespace Mh2c

open Rfc DynamicTable

/-- What a SETTINGS frame does to the two tables. -/
theorem settings_received [Platform] (c : Client) (flags : UInt8) (streamId : UInt32)
    (settings : List (UInt16 × UInt32)) (rest : Bytes)
    (hin : c.conn.incoming = frameOctets 4 flags streamId.toNat (settingsOctets settings) ++ rest)
    (hs : streamId.toNat < 2 ^ 31) (hl : (settingsOctets settings).length < 2 ^ 24)
    (hok : Accounted c.responseTable) (hmax : c.responseTable.maxTableSize < 2 ^ 63)
    (hw : Willing c.conn.reads (frameLength c.conn.incoming)) :
    c.receiveFrame.1.Returns ∧ c.receiveFrame.2.requestTable = c.requestTable ∧
      c.receiveFrame.2.responseTable = match settings.lookup 1 with
        | some v => ⟨takeFit v.toNat c.responseTable.entries,
            total (takeFit v.toNat c.responseTable.entries), v.toNat⟩
        | none => c.responseTable := by
  obtain ⟨hlen, f1, f2, f3, f4⟩ := front_frame 4 flags streamId (settingsOctets settings) rest hl hs
  have hfl : frameLength c.conn.incoming = 9 + (settingsOctets settings).length := by
    rw [frameLength, announced, hin, f1]
  obtain ⟨fh, j, -, g1, -, g3⟩ := receiveFrame_progress c
    (by rw [hin, f1, List.length_append, hlen]; omega) hw.1 hw.2
  rw [hin, f2] at g1
  obtain rfl := Res.ok.inj g1
  have hlook : (settings.foldl (fun m p => SfPayload.insert p.1 p.2 m) []).lookup 1 =
      settings.lookup 1 := by
    rw [foldl_lookup settings (by simp [IsMap])]; simp
  have hp : processTable ⟨castToFhLength (settingsOctets settings).length, 4, flags, 0, streamId⟩
      (settingsOctets settings) c.responseTable =
      (.ok (.settings (SettingsFrame.new flags streamId
        (settings.foldl (fun m p => SfPayload.insert p.1 p.2 m) []))),
       match settings.lookup 1 with
        | some v => ⟨takeFit v.toNat c.responseTable.entries,
            total (takeFit v.toNat c.responseTable.entries), v.toNat⟩
        | none => c.responseTable) := by
    unfold processTable
    have hb : buildFrame ⟨castToFhLength (settingsOctets settings).length, 4, flags, 0, streamId⟩
        (settingsOctets settings) c.responseTable = .ok (.settings (SettingsFrame.new flags streamId
        (settings.foldl (fun m p => SfPayload.insert p.1 p.2 m) []))) := by
      rw [buildFrame_settings _ _ _ rfl, buildSettingsFrame, parseSettings_ok]
      rfl
    rw [hb]
    simp only
    rw [updateFrame_built (built_of_ok hb)]
    simp only [SettingsFrame.new, hlook]
    cases settings.lookup 1 with
    | none => rfl
    | some v =>
        simp only
        rw [updateTableSize_eq ⟨hok.1, hok.2, hmax⟩]
  have hraw : (c.conn.incoming.drop 9).take (beValue (c.conn.incoming.take 3)) =
      settingsOctets settings := by rw [hin, f1, f3]
  rw [g3, processFrame_eq, hraw]
  change (processTable _ _ c.responseTable).1.Returns ∧ _ ∧
    (processTable _ _ c.responseTable).2 = _
  rw [hp]
  exact ⟨⟨_, rfl⟩, rfl, rfl⟩

/-- C62, exactly. A SETTINGS frame is received whole. The client returns; afterwards its request
table is within the size the peer announced last and its response table is as before if and only if
the request table was within that size already and the first size announced is the one the response
table has (or no size is announced). Missing: all other sizes, for which the property is false
(`C62_header_table_size_violated`). -/
theorem C62_exact_partial [Platform] (c : Client) (flags : UInt8) (streamId : UInt32)
    (settings : List (UInt16 × UInt32)) (rest : Bytes)
    (hin : c.conn.incoming = frameOctets 4 flags streamId.toNat (settingsOctets settings) ++ rest)
    (hs : streamId.toNat < 2 ^ 31) (hl : (settingsOctets settings).length < 2 ^ 24)
    (hok : Accounted c.responseTable) (hmax : c.responseTable.maxTableSize < 2 ^ 63)
    (hw : Willing c.conn.reads (frameLength c.conn.incoming)) :
    c.receiveFrame.1.Returns ∧
    (((∀ v, settings.reverse.lookup 1 = some v →
          c.receiveFrame.2.requestTable.maxTableSize ≤ v.toNat) ∧
        c.receiveFrame.2.responseTable = c.responseTable) ↔
      (∀ v, settings.reverse.lookup 1 = some v → c.requestTable.maxTableSize ≤ v.toNat) ∧
        ∀ v, settings.lookup 1 = some v → v.toNat = c.responseTable.maxTableSize) := by
  obtain ⟨h1, h2, h3⟩ := settings_received c flags streamId settings rest hin hs hl hok hmax hw
  refine ⟨h1, ?_⟩
  rw [h2, h3]
  refine and_congr_right fun _ => ?_
  cases hv : settings.lookup 1 with
  | none => exact ⟨fun _ v hc => (by cases hc), fun _ => rfl⟩
  | some v =>
      constructor
      · rintro h v' ⟨⟩
        exact congrArg DynamicTable.maxTableSize h
      · intro h
        have hv' := h v rfl
        have hfit : takeFit v.toNat c.responseTable.entries = c.responseTable.entries := by
          apply DynamicTable.takeFit_all
          have := hok.1
          have := hok.2
          change Rfc.tableSize _ ≤ _
          omega
        simp only
        rw [hfit, hv']
        have := hok.1
        revert this
        rcases c.responseTable with ⟨es, n, m⟩
        intro (this : n = tableSize es)
        subst this
        rfl

/-- A frame that announces the size the response table has, and other settings. -/
def sameSize : Client :=
  ⟨⟨frameOctets 4 0 0 (settingsOctets [(3, 100), (1, 4096)]) ++ [7], [], List.replicate 21 1, []⟩,
    ⟨[], 0, 4096⟩, ⟨[(bstr "a", bstr "b")], 34, 4096⟩⟩

attribute [local instance] x86 in
example : Accounted sameSize.responseTable ∧
    Willing sameSize.conn.reads (frameLength sameSize.conn.incoming) ∧
    ([(3, 100), (1, 4096)] : List (UInt16 × UInt32)).lookup 1 = some 4096 ∧
    sameSize.receiveFrame.2.responseTable = sameSize.responseTable :=
  ⟨⟨by decide, by decide⟩, by decide +kernel, by decide +kernel, by decide +kernel⟩

end Mh2c
