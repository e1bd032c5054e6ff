import Verif.Spec.Peers
import Verif.Props.Device

/-! # C111: what one host says or is, the host at the other end is told -/

namespace Bt

open Spec

variable {σ E VS : Type} (c c' : Cfg) (V V' : Vendor) (l : Link) (k : Controller σ E) (vinto : VS → UInt8)

theorem reason_code (r : Reason) : ∃ b, disconnectCode (r.status (VS := VS)) = some b ∧
    StatusByte c V b (r.status (VS := V.VStatus)) := by
  have h : ∀ b : UInt8, b.toNat < 0x41 → standardStatuses[b.toNat]? = some (r.status (VS := V.VStatus)) →
      StatusByte c V b (r.status (VS := V.VStatus)) := by
    intro b hb hs
    unfold StatusByte statusCount
    rw [if_pos (by split <;> omega)]
    exact hs
  cases r
  · exact ⟨0x05, rfl, h _ (by decide) rfl⟩
  · exact ⟨0x13, rfl, h _ (by decide) rfl⟩
  · exact ⟨0x14, rfl, h _ (by decide) rfl⟩
  · exact ⟨0x15, rfl, h _ (by decide) rfl⟩
  · exact ⟨0x1A, rfl, h _ (by decide) rfl⟩
  · exact ⟨0x29, rfl, h _ (by decide) rfl⟩
  · exact ⟨0x3B, rfl, h _ (by decide) rfl⟩

theorem reason_of_code {st : Status VS} {b : UInt8} (h : disconnectCode st = some b) :
    ∃ r : Reason, st = r.status := by
  cases st <;> first
    | exact ⟨.authFailure, rfl⟩ | exact ⟨.user, rfl⟩ | exact ⟨.lowResources, rfl⟩ | exact ⟨.powerOff, rfl⟩
    | exact ⟨.unsupportedFeature, rfl⟩ | exact ⟨.unitKey, rfl⟩ | exact ⟨.unacceptableParameters, rfl⟩ | cases h

/-- **C111.** A host disconnects. If anything is written, its controller can take it apart, the status given is one of the
seven reasons, and the host at the other end is told that its connection has ended, for this reason. The configurations
and vendors of the two ends may differ. -/
theorem C111_reason (h : ConnectionHandle) (st : Status VS) (s : σ) (header payload : List UInt8)
    (hw : (Command.exec (linkHeader l) (recording k) vinto (.disconnect h st) (s, [])).2.2 = [.write header payload])
    (h' : UInt16) :
    ∃ r b, st = Reason.status r ∧ AsksDisconnect l (header ++ payload) (le16 h.val) b ∧
      Event.new c' V' (disconnected (le16 h') b) = .ok (.disconnectionComplete ⟨.success, ⟨h'⟩, r.status⟩) := by
  obtain ⟨ha, rfl, rfl⟩ := wrote ⟨false, false⟩ l k vinto _ (by simp [Command.Constructible]) s header payload hw
  cases hc : disconnectCode st with
  | none => simp [cmdReject, hc] at ha
  | some b =>
    obtain ⟨r, rfl⟩ := reason_of_code hc
    obtain ⟨b', hb, hs⟩ := reason_code (VS := VS) c' V' r
    rw [hc] at hb
    cases hb
    refine ⟨r, b, rfl, ⟨by simp, ?_⟩, ?_⟩
    · have hp : cmdParams (.disconnect h r.status : Command VS) = le16 h.val ++ [b] := by simp [cmdParams, hc]
      rw [hp]
      have hl : (le16 h.val ++ [b]).length = 3 := by simp
      rw [hl]
      change headerBytes l 0x0406 3 ++ _ = _
      rw [header_is l (lo := 0x06) (hi := 0x04) (by decide)]
      simp only [List.append_assoc]
      rfl
    · exact (C09_sound_and_complete c' V' _ _).mpr ⟨0x05, _, by simp [disconnected, frame], by simp,
        .disconnectionComplete (h := h') (status_zero c' V') hs⟩

/-- **C111.** Every reason can be given: the command is written. -/
theorem C111_said (h : ConnectionHandle) (r : Reason) (s : σ) : ∃ header payload,
    (Command.exec (linkHeader l) (recording k) vinto (.disconnect h r.status) (s, [])).2.2 =
      [.write header payload] := by
  refine ⟨_, _, C39_trace ⟨false, false⟩ l k vinto _ (by simp [Command.Constructible]) ?_ s []⟩
  obtain ⟨b, hb, -⟩ := reason_code (VS := VS) ⟨false, false⟩ demoVendor r
  simp [cmdReject, hb]

/-- The hypothesis of `C111_reason` is met. -/
example (s : σ) : ∃ header payload, (Command.exec (linkHeader .uart) (recording k) vinto
    (.disconnect ⟨0x0201⟩ .remoteTerminationPowerOff) (s, [])).2.2 = [.write header payload] :=
  C111_said .uart k vinto ⟨0x0201⟩ .powerOff s

/-- **C111.** A host asks for the version of the other end. What it is told is the version that the host at the other end
is told by its own controller, and the connection is the one it asked about. -/
theorem C111_version (h : ConnectionHandle) (s : σ) (hci revision version company subversion : List UInt8)
    (h1 : hci.length = 1) (h2 : revision.length = 2) (h3 : version.length = 1) (h4 : company.length = 2)
    (h5 : subversion.length = 2) :
    ∃ header payload handle i,
      (Command.exec (linkHeader l) (recording k) vinto (.readRemoteVersionInformation h) (s, [])).2.2 =
        [.write header payload] ∧ AsksVersion l (header ++ payload) handle ∧
      Event.new c' V' (ownVersion hci revision version company subversion) =
        .ok (.commandComplete ⟨1, .readLocalVersionInformation i⟩) ∧
      Event.new c V (peerVersion handle version company subversion) =
        .ok (.readRemoteVersionInformationComplete
          ⟨.success, h, i.lmpVersion, i.manufacturerName, i.lmpSubversion⟩) := by
  obtain ⟨a, rfl⟩ := List.length_eq_one_iff.mp h1
  obtain ⟨v, rfl⟩ := List.length_eq_one_iff.mp h3
  obtain ⟨rev, rfl⟩ : ∃ x, revision = le16 x := ⟨_, (le16_ofNat_leNat _ h2).symm⟩
  obtain ⟨m, rfl⟩ : ∃ x, company = le16 x := ⟨_, (le16_ofNat_leNat _ h4).symm⟩
  obtain ⟨x, rfl⟩ : ∃ x, subversion = le16 x := ⟨_, (le16_ofNat_leNat _ h5).symm⟩
  refine ⟨_, _, le16 h.val, ⟨.success, a, rev, v, m, x⟩,
    C39_trace c l k vinto _ (by simp [Command.Constructible]) rfl s [], ⟨by simp, ?_⟩, ?_, ?_⟩
  · have hl : (cmdParams (.readRemoteVersionInformation h : Command VS)).length = 2 := by simp [cmdParams]
    rw [hl]
    change headerBytes l 0x041D 2 ++ le16 h.val = _
    rw [header_is l (lo := 0x1D) (hi := 0x04) (by decide)]
    rfl
  · refine (C09_sound_and_complete c' V' _ _).mpr ⟨0x0E, _, ?_, ?_, .commandComplete (n := 1)
      (.readLocalVersionInformation (hv := a) (hr := rev) (lv := v) (m := m) (ls := x) (status_zero c' V'))⟩
    · have ho : le16 (op 0x04 0x01) = [0x01, 0x10] := by decide
      simp [ownVersion, frame, ho]
    · simp
  · exact (C09_sound_and_complete c V _ _).mpr ⟨0x0C, _, by simp [peerVersion, frame], by simp,
      .readRemoteVersionInformationComplete (h := h.val) (v := v) (m := m) (x := x) (status_zero c V)⟩

example : peerVersion (le16 0x0201) [0x09] [0x30, 0x00] [0x11, 0x22] =
    [0x0C, 8, 0, 0x01, 0x02, 0x09, 0x30, 0x00, 0x11, 0x22] := by decide

/-- **C111.** A host asks for the features of the other end, which are the bits of `x`. If it knows them all, it is told
all of them, and the host at the other end is told the same of each feature that it knows; but if the other end has a
feature that the asking host does not know, the whole event is rejected, with the features in the error. -/
theorem C111_features (h : ConnectionHandle) (s : σ) (x : UInt64) :
    ∃ header payload handle own,
      (Command.exec (linkHeader l) (recording k) vinto (.leReadRemoteUsedFeatures h) (s, [])).2.2 =
        [.write header payload] ∧ AsksFeatures l (header ++ payload) handle ∧
      Event.new c' V' (ownFeatures (le64 x)) =
        .ok (.commandComplete ⟨1, .leReadLocalSupportedFeatures ⟨.success, own⟩⟩) ∧
      (∀ j, own.toNat.testBit j = true ↔ x.toNat.testBit j = true ∧ LeFeatureBit c' j) ∧
      ((∀ j, x.toNat.testBit j = true → LeFeatureBit c j) →
        Event.new c V (peerFeatures handle (le64 x)) =
          .ok (.leReadRemoteUsedFeaturesComplete ⟨.success, h, x⟩)) ∧
      (∀ j, x.toNat.testBit j = true → ¬ LeFeatureBit c j →
        Event.new c V (peerFeatures handle (le64 x)) = .err (.badRemoteUsedFeatureFlag x)) := by
  have hp : peerFeatures (le16 h.val) (le64 x) = frame 0x3E (0x04 :: 0 :: le16 h.val ++ le64 x) := by
    simp [peerFeatures, frame]
  refine ⟨_, _, le16 h.val, fromBitsTruncate c' leFeatures x,
    C39_trace c l k vinto _ (by simp [Command.Constructible]) rfl s [], ⟨by simp, ?_⟩, ?_, ?_, ?_, ?_⟩
  · have hl : (cmdParams (.leReadRemoteUsedFeatures h : Command VS)).length = 2 := by simp [cmdParams]
    rw [hl]
    change headerBytes l 0x2016 2 ++ le16 h.val = _
    rw [header_is l (lo := 0x16) (hi := 0x20) (by decide)]
    rfl
  · refine (C09_sound_and_complete c' V' _ _).mpr ⟨0x0E, _, ?_, ?_, .commandComplete (n := 1)
      (.leReadLocalSupportedFeatures (x := x) (status_zero c' V') (leFeatures_truncate c' x))⟩
    · have ho : le16 (op 0x08 0x03) = [0x03, 0x20] := by decide
      simp [ownFeatures, frame, ho]
    · simp
  · exact leFeatures_truncate c' x
  · intro hx
    rw [hp]
    exact (C25_remote_features 0 (status_zero c V) h.val x).1 hx
  · intro j hj hn
    rw [hp]
    exact (C25_remote_features 0 (status_zero c V) h.val x).2 fun hx => hn (hx j hj)

/-- A host that is built for version 4.1 is rejected the features of a controller that has the 2M PHY; one that is built for
version 5.0 is told them. -/
example : (0x101 : UInt64).toNat.testBit 8 = true ∧ ¬ LeFeatureBit ⟨false, false⟩ 8 ∧
    ∀ j, (0x101 : UInt64).toNat.testBit j = true → LeFeatureBit ⟨true, true⟩ j := by
  refine ⟨by decide, by simp [LeFeatureBit, From42, From50], fun j hj => ?_⟩
  rcases Nat.lt_or_ge j 17 with h | h
  · exact .inr (.inr ⟨rfl, h⟩)
  · rw [Nat.testBit_lt_two_pow (Nat.lt_of_lt_of_le (by decide : (0x101 : UInt64).toNat < 2 ^ 17)
      (Nat.pow_le_pow_right (by decide) h))] at hj
    cases hj

end Bt
