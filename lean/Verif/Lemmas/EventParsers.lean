import Verif.Lemmas.EventFields

/-! # The event parsers on byte strings of the right length -/

set_option linter.unusedTactic false
set_option linter.unreachableTactic false
set_option linter.unnecessarySeqFocus false

namespace Bt

open Spec

section
variable {VE : Type}

theorem requireLen_ok {bs : List UInt8} {n : Nat} (h : bs.length = n) :
    requireLen (VE := VE) bs n = .ok () := by simp [requireLen, h]

theorem requireLen_err {bs : List UInt8} {n : Nat} (h : bs.length ≠ n) :
    requireLen (VE := VE) bs n = .err (.badLength bs.length n) := by simp [requireLen, h]

theorem addr_cases (a : BdAddr) : ∃ x0 x1 x2 x3 x4 x5, a = ⟨⟨[x0, x1, x2, x3, x4, x5], rfl⟩⟩ := by
  obtain ⟨⟨v, hv⟩⟩ := a
  match v, hv with
  | [x0, x1, x2, x3, x4, x5], _ => exact ⟨x0, x1, x2, x3, x4, x5, rfl⟩

end

variable (c : Cfg) (V : Vendor)

theorem connectionComplete_eq (st : UInt8) (h : UInt16) (a : BdAddr) (x : UInt8) (y : UInt8) :
    toConnectionComplete c V (st :: le16 h ++ a.val.val ++ [x, y]) =
      (do let s ← tryStatus c V st
          let lt ← LinkType.tryFrom x
          let enc ← tryIntoEncryptionEnabled y
          .ok ⟨s, ⟨h⟩, a, lt, enc⟩) := by
  obtain ⟨h0, h1, hb, hv⟩ := le16_cases h
  obtain ⟨a0, a1, a2, a3, a4, a5, rfl⟩ := addr_cases a
  rw [hb, ← hv]
  rfl

theorem connectionComplete_shape (p : List UInt8) (hl : p.length = 11) :
    ∃ (st : UInt8) (h : UInt16) (a : BdAddr) (x : UInt8) (y : UInt8), p = st :: le16 h ++ a.val.val ++ [x, y] := by
  match p, hl with
  | [b0, b1, b2, b3, b4, b5, b6, b7, b8, b9, b10], _ =>
    obtain ⟨h, hh⟩ := le16_exists b1 b2
    exact ⟨b0, h, ⟨⟨[b3, b4, b5, b6, b7, b8], rfl⟩⟩, b9, b10, by rw [← hh] <;> rfl⟩

theorem connectionComplete_len (p : List UInt8) (hl : p.length ≠ 11) :
    toConnectionComplete c V p = .err (.badLength p.length 11) := by
  unfold toConnectionComplete
  rw [requireLen_err hl]
  rfl

theorem disconnectionComplete_eq (st : UInt8) (h : UInt16) (x : UInt8) :
    toDisconnectionComplete c V (st :: le16 h ++ [x]) =
      (do let s ← tryStatus c V st
          let r ← tryReason c V x
          .ok ⟨s, ⟨h⟩, r⟩) := by
  obtain ⟨h0, h1, hb, hv⟩ := le16_cases h
  rw [hb, ← hv]
  rfl

theorem disconnectionComplete_shape (p : List UInt8) (hl : p.length = 4) :
    ∃ (st : UInt8) (h : UInt16) (x : UInt8), p = st :: le16 h ++ [x] := by
  match p, hl with
  | [b0, b1, b2, b3], _ =>
    obtain ⟨h, hh⟩ := le16_exists b1 b2
    exact ⟨b0, h, b3, by rw [← hh] <;> rfl⟩

theorem disconnectionComplete_len (p : List UInt8) (hl : p.length ≠ 4) :
    toDisconnectionComplete c V p = .err (.badLength p.length 4) := by
  unfold toDisconnectionComplete
  rw [requireLen_err hl]
  rfl

theorem encryptionChange_eq (st : UInt8) (h : UInt16) (x : UInt8) :
    toEncryptionChange c V (st :: le16 h ++ [x]) =
      (do let s ← tryStatus c V st
          let r ← Encryption.tryFrom x
          .ok ⟨s, ⟨h⟩, r⟩) := by
  obtain ⟨h0, h1, hb, hv⟩ := le16_cases h
  rw [hb, ← hv]
  rfl

theorem encryptionChange_shape (p : List UInt8) (hl : p.length = 4) :
    ∃ (st : UInt8) (h : UInt16) (x : UInt8), p = st :: le16 h ++ [x] := by
  match p, hl with
  | [b0, b1, b2, b3], _ =>
    obtain ⟨h, hh⟩ := le16_exists b1 b2
    exact ⟨b0, h, b3, by rw [← hh] <;> rfl⟩

theorem encryptionChange_len (p : List UInt8) (hl : p.length ≠ 4) :
    toEncryptionChange c V p = .err (.badLength p.length 4) := by
  unfold toEncryptionChange
  rw [requireLen_err hl]
  rfl

theorem remoteVersionInfo_eq (st : UInt8) (h : UInt16) (v : UInt8) (m : UInt16) (x : UInt16) :
    toRemoteVersionInfo c V (st :: le16 h ++ v :: le16 m ++ le16 x) =
      (do let s ← tryStatus c V st
          .ok ⟨s, ⟨h⟩, v, m, x⟩) := by
  obtain ⟨h0, h1, hb, hv⟩ := le16_cases h
  obtain ⟨m0, m1, mb, mv⟩ := le16_cases m
  obtain ⟨x0, x1, xb, xv⟩ := le16_cases x
  rw [hb, mb, xb, ← hv, ← mv, ← xv]
  rfl

theorem remoteVersionInfo_shape (p : List UInt8) (hl : p.length = 8) :
    ∃ (st : UInt8) (h : UInt16) (v : UInt8) (m : UInt16) (x : UInt16), p = st :: le16 h ++ v :: le16 m ++ le16 x := by
  match p, hl with
  | [b0, b1, b2, b3, b4, b5, b6, b7], _ =>
    obtain ⟨h, hh⟩ := le16_exists b1 b2
    obtain ⟨m, mh⟩ := le16_exists b4 b5
    obtain ⟨x, xh⟩ := le16_exists b6 b7
    exact ⟨b0, h, b3, m, x, by rw [← hh, ← mh, ← xh] <;> rfl⟩

theorem remoteVersionInfo_len (p : List UInt8) (hl : p.length ≠ 8) :
    toRemoteVersionInfo c V p = .err (.badLength p.length 8) := by
  unfold toRemoteVersionInfo
  rw [requireLen_err hl]
  rfl

theorem commandStatus_eq (st : UInt8) (n : UInt8) (o : UInt16) :
    toCommandStatus c V (st :: n :: le16 o) =
      (do let s ← tryStatus c V st
          .ok ⟨s, n, ⟨o⟩⟩) := by
  obtain ⟨o0, o1, ob, ov⟩ := le16_cases o
  rw [ob, ← ov]
  rfl

theorem commandStatus_shape (p : List UInt8) (hl : p.length = 4) :
    ∃ (st : UInt8) (n : UInt8) (o : UInt16), p = st :: n :: le16 o := by
  match p, hl with
  | [b0, b1, b2, b3], _ =>
    obtain ⟨o, oh⟩ := le16_exists b2 b3
    exact ⟨b0, b1, o, by rw [← oh] <;> rfl⟩

theorem commandStatus_len (p : List UInt8) (hl : p.length ≠ 4) :
    toCommandStatus c V p = .err (.badLength p.length 4) := by
  unfold toCommandStatus
  rw [requireLen_err hl]
  rfl

theorem hardwareError_shape (p : List UInt8) (hl : p.length = 1) :
    ∃ (x : UInt8), p = [x] := by
  match p, hl with
  | [b0], _ =>
    exact ⟨b0, by rfl⟩

theorem hardwareError_len (p : List UInt8) (hl : p.length ≠ 1) :
    toHardwareError V p = .err (.badLength p.length 1) := by
  unfold toHardwareError
  rw [requireLen_err hl]
  rfl

theorem dataBufferOverflow_eq (x : UInt8) :
    toDataBufferOverflow V ([x]) =
      (do let lt ← LinkType.tryFrom x
          .ok ⟨lt⟩) := by
  rfl

theorem dataBufferOverflow_shape (p : List UInt8) (hl : p.length = 1) :
    ∃ (x : UInt8), p = [x] := by
  match p, hl with
  | [b0], _ =>
    exact ⟨b0, by rfl⟩

theorem dataBufferOverflow_len (p : List UInt8) (hl : p.length ≠ 1) :
    toDataBufferOverflow V p = .err (.badLength p.length 1) := by
  unfold toDataBufferOverflow
  rw [requireLen_err hl]
  rfl

theorem encryptionKeyRefreshComplete_eq (st : UInt8) (h : UInt16) :
    toEncryptionKeyRefreshComplete c V (st :: le16 h) =
      (do let s ← tryStatus c V st
          .ok ⟨s, ⟨h⟩⟩) := by
  obtain ⟨h0, h1, hb, hv⟩ := le16_cases h
  rw [hb, ← hv]
  rfl

theorem encryptionKeyRefreshComplete_shape (p : List UInt8) (hl : p.length = 3) :
    ∃ (st : UInt8) (h : UInt16), p = st :: le16 h := by
  match p, hl with
  | [b0, b1, b2], _ =>
    obtain ⟨h, hh⟩ := le16_exists b1 b2
    exact ⟨b0, h, by rw [← hh] <;> rfl⟩

theorem encryptionKeyRefreshComplete_len (p : List UInt8) (hl : p.length ≠ 3) :
    toEncryptionKeyRefreshComplete c V p = .err (.badLength p.length 3) := by
  unfold toEncryptionKeyRefreshComplete
  rw [requireLen_err hl]
  rfl

theorem leConnectionComplete_eq (sub : UInt8) (st : UInt8) (h : UInt16) (r : UInt8) (k : UInt8) (ad : BdAddr) (a : UInt16) (l : UInt16) (t : UInt16) (x : UInt8) :
    toLeConnectionComplete c V (sub :: st :: le16 h ++ r :: k :: ad.val.val ++ le16 a ++ le16 l ++ le16 t ++ [x]) =
      (do let s ← tryStatus c V st
          let role ← ConnectionRole.tryFrom r
          let peer ← (toBdAddrType k ad).mapErr .badLeAddressType
          let i ← (FixedConnectionInterval.fromBytes (le16 a ++ le16 l ++ le16 t)).mapErr .badConnectionInterval
          let clock ← CentralClockAccuracy.tryFrom x
          .ok ⟨s, ⟨h⟩, role, peer, i, clock⟩) := by
  obtain ⟨h0, h1, hb, hv⟩ := le16_cases h
  obtain ⟨a0, a1, ab, av⟩ := le16_cases a
  obtain ⟨l0, l1, lb, lv⟩ := le16_cases l
  obtain ⟨t0, t1, tb, tv⟩ := le16_cases t
  obtain ⟨ad0, ad1, ad2, ad3, ad4, ad5, rfl⟩ := addr_cases ad
  rw [hb, ab, lb, tb, ← hv]
  rfl

theorem leConnectionComplete_shape (p : List UInt8) (hl : p.length = 19) :
    ∃ (sub : UInt8) (st : UInt8) (h : UInt16) (r : UInt8) (k : UInt8) (ad : BdAddr) (a : UInt16) (l : UInt16) (t : UInt16) (x : UInt8), p = sub :: st :: le16 h ++ r :: k :: ad.val.val ++ le16 a ++ le16 l ++ le16 t ++ [x] := by
  match p, hl with
  | [b0, b1, b2, b3, b4, b5, b6, b7, b8, b9, b10, b11, b12, b13, b14, b15, b16, b17, b18], _ =>
    obtain ⟨h, hh⟩ := le16_exists b2 b3
    obtain ⟨a, ah⟩ := le16_exists b12 b13
    obtain ⟨l, lh⟩ := le16_exists b14 b15
    obtain ⟨t, th⟩ := le16_exists b16 b17
    exact ⟨b0, b1, h, b4, b5, ⟨⟨[b6, b7, b8, b9, b10, b11], rfl⟩⟩, a, l, t, b18, by rw [← hh, ← ah, ← lh, ← th] <;> rfl⟩

theorem leConnectionComplete_len (p : List UInt8) (hl : p.length ≠ 19) :
    toLeConnectionComplete c V p = .err (.badLength p.length 19) := by
  unfold toLeConnectionComplete
  rw [requireLen_err hl]
  rfl

theorem leConnectionUpdateComplete_eq (sub : UInt8) (st : UInt8) (h : UInt16) (a : UInt16) (l : UInt16) (t : UInt16) :
    toLeConnectionUpdateComplete c V (sub :: st :: le16 h ++ le16 a ++ le16 l ++ le16 t) =
      (do let s ← tryStatus c V st
          let i ← (FixedConnectionInterval.fromBytes (le16 a ++ le16 l ++ le16 t)).mapErr .badConnectionInterval
          .ok ⟨s, ⟨h⟩, i⟩) := by
  obtain ⟨h0, h1, hb, hv⟩ := le16_cases h
  obtain ⟨a0, a1, ab, av⟩ := le16_cases a
  obtain ⟨l0, l1, lb, lv⟩ := le16_cases l
  obtain ⟨t0, t1, tb, tv⟩ := le16_cases t
  rw [hb, ab, lb, tb, ← hv]
  rfl

theorem leConnectionUpdateComplete_shape (p : List UInt8) (hl : p.length = 10) :
    ∃ (sub : UInt8) (st : UInt8) (h : UInt16) (a : UInt16) (l : UInt16) (t : UInt16), p = sub :: st :: le16 h ++ le16 a ++ le16 l ++ le16 t := by
  match p, hl with
  | [b0, b1, b2, b3, b4, b5, b6, b7, b8, b9], _ =>
    obtain ⟨h, hh⟩ := le16_exists b2 b3
    obtain ⟨a, ah⟩ := le16_exists b4 b5
    obtain ⟨l, lh⟩ := le16_exists b6 b7
    obtain ⟨t, th⟩ := le16_exists b8 b9
    exact ⟨b0, b1, h, a, l, t, by rw [← hh, ← ah, ← lh, ← th] <;> rfl⟩

theorem leConnectionUpdateComplete_len (p : List UInt8) (hl : p.length ≠ 10) :
    toLeConnectionUpdateComplete c V p = .err (.badLength p.length 10) := by
  unfold toLeConnectionUpdateComplete
  rw [requireLen_err hl]
  rfl

theorem leReadRemoteUsedFeaturesComplete_eq (sub : UInt8) (st : UInt8) (h : UInt16) (x : UInt64) :
    toLeReadRemoteUsedFeaturesComplete c V (sub :: st :: le16 h ++ le64 x) =
      (do let s ← tryStatus c V st
          match fromBits c linkLayerFeature x with
          | some f => .ok ⟨s, ⟨h⟩, f⟩
          | none => .err (.badRemoteUsedFeatureFlag x)) := by
  obtain ⟨h0, h1, hb, hv⟩ := le16_cases h
  obtain ⟨x0, x1, x2, x3, x4, x5, x6, x7, xb, xv⟩ := le64_cases x
  rw [hb, xb, ← hv, ← xv]
  rfl

theorem leReadRemoteUsedFeaturesComplete_shape (p : List UInt8) (hl : p.length = 12) :
    ∃ (sub : UInt8) (st : UInt8) (h : UInt16) (x : UInt64), p = sub :: st :: le16 h ++ le64 x := by
  match p, hl with
  | [b0, b1, b2, b3, b4, b5, b6, b7, b8, b9, b10, b11], _ =>
    obtain ⟨h, hh⟩ := le16_exists b2 b3
    obtain ⟨x, xh⟩ := le64_exists b4 b5 b6 b7 b8 b9 b10 b11
    exact ⟨b0, b1, h, x, by rw [← hh, ← xh] <;> rfl⟩

theorem leReadRemoteUsedFeaturesComplete_len (p : List UInt8) (hl : p.length ≠ 12) :
    toLeReadRemoteUsedFeaturesComplete c V p = .err (.badLength p.length 12) := by
  unfold toLeReadRemoteUsedFeaturesComplete
  rw [requireLen_err hl]
  rfl

theorem leLtkRequest_eq (sub : UInt8) (h : UInt16) (x : UInt64) (d : UInt16) :
    toLeLtkRequest V (sub :: le16 h ++ le64 x ++ le16 d) =
      (do .ok ⟨⟨h⟩, x, d⟩) := by
  obtain ⟨h0, h1, hb, hv⟩ := le16_cases h
  obtain ⟨d0, d1, db, dv⟩ := le16_cases d
  obtain ⟨x0, x1, x2, x3, x4, x5, x6, x7, xb, xv⟩ := le64_cases x
  rw [hb, db, xb, ← hv, ← dv, ← xv]
  rfl

theorem leLtkRequest_shape (p : List UInt8) (hl : p.length = 13) :
    ∃ (sub : UInt8) (h : UInt16) (x : UInt64) (d : UInt16), p = sub :: le16 h ++ le64 x ++ le16 d := by
  match p, hl with
  | [b0, b1, b2, b3, b4, b5, b6, b7, b8, b9, b10, b11, b12], _ =>
    obtain ⟨h, hh⟩ := le16_exists b1 b2
    obtain ⟨x, xh⟩ := le64_exists b3 b4 b5 b6 b7 b8 b9 b10
    obtain ⟨d, dh⟩ := le16_exists b11 b12
    exact ⟨b0, h, x, d, by rw [← hh, ← xh, ← dh] <;> rfl⟩

theorem leLtkRequest_len (p : List UInt8) (hl : p.length ≠ 13) :
    toLeLtkRequest V p = .err (.badLength p.length 13) := by
  unfold toLeLtkRequest
  rw [requireLen_err hl]
  rfl

theorem leDataLengthChangeEvent_eq (sub : UInt8) (h : UInt16) (a : UInt16) (b : UInt16) (d : UInt16) (e : UInt16) :
    toLeDataLengthChangeEvent V (sub :: le16 h ++ le16 a ++ le16 b ++ le16 d ++ le16 e) =
      (do .ok ⟨⟨h⟩, a, b, d, e⟩) := by
  obtain ⟨h0, h1, hb, hv⟩ := le16_cases h
  obtain ⟨a0, a1, ab, av⟩ := le16_cases a
  obtain ⟨b0, b1, bb, bv⟩ := le16_cases b
  obtain ⟨d0, d1, db, dv⟩ := le16_cases d
  obtain ⟨e0, e1, eb, ev⟩ := le16_cases e
  rw [hb, ab, bb, db, eb, ← hv, ← av, ← bv, ← dv, ← ev]
  rfl

theorem leDataLengthChangeEvent_shape (p : List UInt8) (hl : p.length = 11) :
    ∃ (sub : UInt8) (h : UInt16) (a : UInt16) (b : UInt16) (d : UInt16) (e : UInt16), p = sub :: le16 h ++ le16 a ++ le16 b ++ le16 d ++ le16 e := by
  match p, hl with
  | [b0, b1, b2, b3, b4, b5, b6, b7, b8, b9, b10], _ =>
    obtain ⟨h, hh⟩ := le16_exists b1 b2
    obtain ⟨a, ah⟩ := le16_exists b3 b4
    obtain ⟨b, bh⟩ := le16_exists b5 b6
    obtain ⟨d, dh⟩ := le16_exists b7 b8
    obtain ⟨e, eh⟩ := le16_exists b9 b10
    exact ⟨b0, h, a, b, d, e, by rw [← hh, ← ah, ← bh, ← dh, ← eh] <;> rfl⟩

theorem leDataLengthChangeEvent_len (p : List UInt8) (hl : p.length ≠ 11) :
    toLeDataLengthChangeEvent V p = .err (.badLength p.length 11) := by
  unfold toLeDataLengthChangeEvent
  rw [requireLen_err hl]
  rfl

theorem lePhyUpdateComplete_eq (sub : UInt8) (st : UInt8) (h : UInt16) (x : UInt8) (y : UInt8) :
    toLePhyUpdateComplete c V (sub :: st :: le16 h ++ [x, y]) =
      (do let s ← tryStatus c V st
          let tx ← Phy.tryFrom x
          let rx ← Phy.tryFrom y
          .ok ⟨⟨h⟩, s, tx, rx⟩) := by
  obtain ⟨h0, h1, hb, hv⟩ := le16_cases h
  rw [hb, ← hv]
  rfl

theorem lePhyUpdateComplete_shape (p : List UInt8) (hl : p.length = 6) :
    ∃ (sub : UInt8) (st : UInt8) (h : UInt16) (x : UInt8) (y : UInt8), p = sub :: st :: le16 h ++ [x, y] := by
  match p, hl with
  | [b0, b1, b2, b3, b4, b5], _ =>
    obtain ⟨h, hh⟩ := le16_exists b2 b3
    exact ⟨b0, b1, h, b4, b5, by rw [← hh] <;> rfl⟩

theorem lePhyUpdateComplete_len (p : List UInt8) (hl : p.length ≠ 6) :
    toLePhyUpdateComplete c V p = .err (.badLength p.length 6) := by
  unfold toLePhyUpdateComplete
  rw [requireLen_err hl]
  rfl

theorem txPowerLevel_eq (st : UInt8) (h : UInt16) (x : UInt8) :
    toTxPowerLevel c V (st :: le16 h ++ [x]) =
      (do let s ← tryStatus c V st
          .ok ⟨s, ⟨h⟩, x.toInt8⟩) := by
  obtain ⟨h0, h1, hb, hv⟩ := le16_cases h
  rw [hb, ← hv]
  rfl

theorem txPowerLevel_shape (p : List UInt8) (hl : p.length = 4) :
    ∃ (st : UInt8) (h : UInt16) (x : UInt8), p = st :: le16 h ++ [x] := by
  match p, hl with
  | [b0, b1, b2, b3], _ =>
    obtain ⟨h, hh⟩ := le16_exists b1 b2
    exact ⟨b0, h, b3, by rw [← hh] <;> rfl⟩

theorem txPowerLevel_len (p : List UInt8) (hl : p.length ≠ 4) :
    toTxPowerLevel c V p = .err (.badLength p.length 4) := by
  unfold toTxPowerLevel
  rw [requireLen_err hl]
  rfl

theorem localVersionInfo_eq (st : UInt8) (hv : UInt8) (hr : UInt16) (lv : UInt8) (m : UInt16) (ls : UInt16) :
    toLocalVersionInfo c V (st :: hv :: le16 hr ++ lv :: le16 m ++ le16 ls) =
      (do let s ← tryStatus c V st
          .ok ⟨s, hv, hr, lv, m, ls⟩) := by
  obtain ⟨hr0, hr1, hrb, hrv⟩ := le16_cases hr
  obtain ⟨m0, m1, mb, mv⟩ := le16_cases m
  obtain ⟨ls0, ls1, lsb, lsv⟩ := le16_cases ls
  rw [hrb, mb, lsb, ← hrv, ← mv, ← lsv]
  rfl

theorem localVersionInfo_shape (p : List UInt8) (hl : p.length = 9) :
    ∃ (st : UInt8) (hv : UInt8) (hr : UInt16) (lv : UInt8) (m : UInt16) (ls : UInt16), p = st :: hv :: le16 hr ++ lv :: le16 m ++ le16 ls := by
  match p, hl with
  | [b0, b1, b2, b3, b4, b5, b6, b7, b8], _ =>
    obtain ⟨hr, hrh⟩ := le16_exists b2 b3
    obtain ⟨m, mh⟩ := le16_exists b5 b6
    obtain ⟨ls, lsh⟩ := le16_exists b7 b8
    exact ⟨b0, b1, hr, b4, m, ls, by rw [← hrh, ← mh, ← lsh] <;> rfl⟩

theorem localVersionInfo_len (p : List UInt8) (hl : p.length ≠ 9) :
    toLocalVersionInfo c V p = .err (.badLength p.length 9) := by
  unfold toLocalVersionInfo
  rw [requireLen_err hl]
  rfl

theorem supportedFeatures_eq (st : UInt8) (x : UInt64) :
    toSupportedFeatures c V (st :: le64 x) =
      (do let s ← tryStatus c V st
          .ok ⟨s, fromBitsTruncate c lmpFeatures x⟩) := by
  obtain ⟨x0, x1, x2, x3, x4, x5, x6, x7, xb, xv⟩ := le64_cases x
  rw [xb, ← xv]
  rfl

theorem supportedFeatures_shape (p : List UInt8) (hl : p.length = 9) :
    ∃ (st : UInt8) (x : UInt64), p = st :: le64 x := by
  match p, hl with
  | [b0, b1, b2, b3, b4, b5, b6, b7, b8], _ =>
    obtain ⟨x, xh⟩ := le64_exists b1 b2 b3 b4 b5 b6 b7 b8
    exact ⟨b0, x, by rw [← xh] <;> rfl⟩

theorem supportedFeatures_len (p : List UInt8) (hl : p.length ≠ 9) :
    toSupportedFeatures c V p = .err (.badLength p.length 9) := by
  unfold toSupportedFeatures
  rw [requireLen_err hl]
  rfl

theorem bdAddr_eq (st : UInt8) (a : BdAddr) :
    toBdAddr c V (st :: a.val.val) =
      (do let s ← tryStatus c V st
          .ok ⟨s, a⟩) := by
  obtain ⟨a0, a1, a2, a3, a4, a5, rfl⟩ := addr_cases a
  rfl

theorem bdAddr_shape (p : List UInt8) (hl : p.length = 7) :
    ∃ (st : UInt8) (a : BdAddr), p = st :: a.val.val := by
  match p, hl with
  | [b0, b1, b2, b3, b4, b5, b6], _ =>
    exact ⟨b0, ⟨⟨[b1, b2, b3, b4, b5, b6], rfl⟩⟩, by rfl⟩

theorem bdAddr_len (p : List UInt8) (hl : p.length ≠ 7) :
    toBdAddr c V p = .err (.badLength p.length 7) := by
  unfold toBdAddr
  rw [requireLen_err hl]
  rfl

theorem readRssi_eq (st : UInt8) (h : UInt16) (x : UInt8) :
    toReadRssi c V (st :: le16 h ++ [x]) =
      (do let s ← tryStatus c V st
          .ok ⟨s, ⟨h⟩, x.toInt8⟩) := by
  obtain ⟨h0, h1, hb, hv⟩ := le16_cases h
  rw [hb, ← hv]
  rfl

theorem readRssi_shape (p : List UInt8) (hl : p.length = 4) :
    ∃ (st : UInt8) (h : UInt16) (x : UInt8), p = st :: le16 h ++ [x] := by
  match p, hl with
  | [b0, b1, b2, b3], _ =>
    obtain ⟨h, hh⟩ := le16_exists b1 b2
    exact ⟨b0, h, b3, by rw [← hh] <;> rfl⟩

theorem readRssi_len (p : List UInt8) (hl : p.length ≠ 4) :
    toReadRssi c V p = .err (.badLength p.length 4) := by
  unfold toReadRssi
  rw [requireLen_err hl]
  rfl

theorem leReadBufferStatus_eq (st : UInt8) (l : UInt16) (n : UInt8) :
    toLeReadBufferStatus c V (st :: le16 l ++ [n]) =
      (do let s ← tryStatus c V st
          .ok ⟨s, l, n⟩) := by
  obtain ⟨l0, l1, lb, lv⟩ := le16_cases l
  rw [lb, ← lv]
  rfl

theorem leReadBufferStatus_shape (p : List UInt8) (hl : p.length = 4) :
    ∃ (st : UInt8) (l : UInt16) (n : UInt8), p = st :: le16 l ++ [n] := by
  match p, hl with
  | [b0, b1, b2, b3], _ =>
    obtain ⟨l, lh⟩ := le16_exists b1 b2
    exact ⟨b0, l, b3, by rw [← lh] <;> rfl⟩

theorem leReadBufferStatus_len (p : List UInt8) (hl : p.length ≠ 4) :
    toLeReadBufferStatus c V p = .err (.badLength p.length 4) := by
  unfold toLeReadBufferStatus
  rw [requireLen_err hl]
  rfl

theorem leLocalSupportedFeatures_eq (st : UInt8) (x : UInt64) :
    toLeLocalSupportedFeatures c V (st :: le64 x) =
      (do let s ← tryStatus c V st
          .ok ⟨s, fromBitsTruncate c leFeatures x⟩) := by
  obtain ⟨x0, x1, x2, x3, x4, x5, x6, x7, xb, xv⟩ := le64_cases x
  rw [xb, ← xv]
  rfl

theorem leLocalSupportedFeatures_shape (p : List UInt8) (hl : p.length = 9) :
    ∃ (st : UInt8) (x : UInt64), p = st :: le64 x := by
  match p, hl with
  | [b0, b1, b2, b3, b4, b5, b6, b7, b8], _ =>
    obtain ⟨x, xh⟩ := le64_exists b1 b2 b3 b4 b5 b6 b7 b8
    exact ⟨b0, x, by rw [← xh] <;> rfl⟩

theorem leLocalSupportedFeatures_len (p : List UInt8) (hl : p.length ≠ 9) :
    toLeLocalSupportedFeatures c V p = .err (.badLength p.length 9) := by
  unfold toLeLocalSupportedFeatures
  rw [requireLen_err hl]
  rfl

theorem leAdvertisingChannelTxPower_eq (st : UInt8) (x : UInt8) :
    toLeAdvertisingChannelTxPower c V ([st, x]) =
      (do let s ← tryStatus c V st
          .ok ⟨s, x.toInt8⟩) := by
  rfl

theorem leAdvertisingChannelTxPower_shape (p : List UInt8) (hl : p.length = 2) :
    ∃ (st : UInt8) (x : UInt8), p = [st, x] := by
  match p, hl with
  | [b0, b1], _ =>
    exact ⟨b0, b1, by rfl⟩

theorem leAdvertisingChannelTxPower_len (p : List UInt8) (hl : p.length ≠ 2) :
    toLeAdvertisingChannelTxPower c V p = .err (.badLength p.length 2) := by
  unfold toLeAdvertisingChannelTxPower
  rw [requireLen_err hl]
  rfl

theorem randomNumber_eq (st : UInt8) (x : UInt64) :
    toRandomNumber c V (st :: le64 x) =
      (do let s ← tryStatus c V st
          .ok ⟨s, x⟩) := by
  obtain ⟨x0, x1, x2, x3, x4, x5, x6, x7, xb, xv⟩ := le64_cases x
  rw [xb, ← xv]
  rfl

theorem randomNumber_shape (p : List UInt8) (hl : p.length = 9) :
    ∃ (st : UInt8) (x : UInt64), p = st :: le64 x := by
  match p, hl with
  | [b0, b1, b2, b3, b4, b5, b6, b7, b8], _ =>
    obtain ⟨x, xh⟩ := le64_exists b1 b2 b3 b4 b5 b6 b7 b8
    exact ⟨b0, x, by rw [← xh] <;> rfl⟩

theorem randomNumber_len (p : List UInt8) (hl : p.length ≠ 9) :
    toRandomNumber c V p = .err (.badLength p.length 9) := by
  unfold toRandomNumber
  rw [requireLen_err hl]
  rfl

theorem leLtkRequestReply_eq (st : UInt8) (h : UInt16) :
    toLeLtkRequestReply c V (st :: le16 h) =
      (do let s ← tryStatus c V st
          .ok ⟨s, ⟨h⟩⟩) := by
  obtain ⟨h0, h1, hb, hv⟩ := le16_cases h
  rw [hb, ← hv]
  rfl

theorem leLtkRequestReply_shape (p : List UInt8) (hl : p.length = 3) :
    ∃ (st : UInt8) (h : UInt16), p = st :: le16 h := by
  match p, hl with
  | [b0, b1, b2], _ =>
    obtain ⟨h, hh⟩ := le16_exists b1 b2
    exact ⟨b0, h, by rw [← hh] <;> rfl⟩

theorem leLtkRequestReply_len (p : List UInt8) (hl : p.length ≠ 3) :
    toLeLtkRequestReply c V p = .err (.badLength p.length 3) := by
  unfold toLeLtkRequestReply
  rw [requireLen_err hl]
  rfl

theorem leReadStates_eq (st : UInt8) (x : UInt64) :
    toLeReadStates c V (st :: le64 x) =
      (do let s ← tryStatus c V st
          match fromBits c leStates x with
          | some f => .ok ⟨s, f⟩
          | none => .err (.invalidLeStates x)) := by
  obtain ⟨x0, x1, x2, x3, x4, x5, x6, x7, xb, xv⟩ := le64_cases x
  rw [xb, ← xv]
  rfl

theorem leReadStates_shape (p : List UInt8) (hl : p.length = 9) :
    ∃ (st : UInt8) (x : UInt64), p = st :: le64 x := by
  match p, hl with
  | [b0, b1, b2, b3, b4, b5, b6, b7, b8], _ =>
    obtain ⟨x, xh⟩ := le64_exists b1 b2 b3 b4 b5 b6 b7 b8
    exact ⟨b0, x, by rw [← xh] <;> rfl⟩

theorem leReadStates_len (p : List UInt8) (hl : p.length ≠ 9) :
    toLeReadStates c V p = .err (.badLength p.length 9) := by
  unfold toLeReadStates
  rw [requireLen_err hl]
  rfl

theorem leTestEnd_eq (st : UInt8) (n : UInt16) :
    toLeTestEnd c V (st :: le16 n) =
      (do let s ← tryStatus c V st
          .ok ⟨s, n.toNat⟩) := by
  obtain ⟨n0, n1, nb, nv⟩ := le16_cases n
  rw [nb, ← nv]
  rfl

theorem leTestEnd_shape (p : List UInt8) (hl : p.length = 3) :
    ∃ (st : UInt8) (n : UInt16), p = st :: le16 n := by
  match p, hl with
  | [b0, b1, b2], _ =>
    obtain ⟨n, nh⟩ := le16_exists b1 b2
    exact ⟨b0, n, by rw [← nh] <;> rfl⟩

theorem leTestEnd_len (p : List UInt8) (hl : p.length ≠ 3) :
    toLeTestEnd c V p = .err (.badLength p.length 3) := by
  unfold toLeTestEnd
  rw [requireLen_err hl]
  rfl

end Bt
