import Verif.Spec.Acceptable
import Verif.Props.CommandArgs
import Verif.Lemmas.FlagTables
import Verif.Lemmas.FlagNames

/-! # Which command packets a conforming controller accepts -/

namespace Bt

open Spec

theorem byteAt_zero (b : UInt8) (bs : List UInt8) : byteAt (b :: bs) 0 = b.toNat := rfl

theorem byteAt_succ (b : UInt8) (bs : List UInt8) (i : Nat) : byteAt (b :: bs) (i + 1) = byteAt bs i := rfl

theorem u16At_zero (n : Nat) (bs : List UInt8) :
    u16At (UInt8.ofNat n :: UInt8.ofNat (n / 256) :: bs) 0 = n % 65536 := by
  simp only [u16At, byteAt_succ, byteAt_zero, UInt8.toNat_ofNat']
  omega

theorem u16At_succ (b : UInt8) (bs : List UInt8) (i : Nat) : u16At (b :: bs) (i + 1) = u16At bs i := rfl

theorem le_two (n : Nat) : le 2 n = [UInt8.ofNat n, UInt8.ofNat (n / 256)] := by
  simp [le, List.range_succ]

theorem handleAt_le16 (h : UInt16) (bs : List UInt8) : HandleAt (le16 h ++ bs) 0 ↔ h.toNat ≤ 0x0EFF := by
  unfold HandleAt le16
  rw [le_two, List.cons_append, List.cons_append, List.nil_append, u16At_zero]
  have := h.toNat_lt
  omega

theorem byteAt_append (pre bs : List UInt8) (i : Nat) : byteAt (pre ++ bs) (pre.length + i) = byteAt bs i := by
  induction pre with
  | nil => simp
  | cons b pre ih =>
    rw [List.cons_append, List.length_cons, Nat.add_right_comm, byteAt_succ, ih]

theorem byteAt_append_of {pre bs : List UInt8} {n i : Nat} (h : pre.length = n) :
    byteAt (pre ++ bs) (n + i) = byteAt bs i := by
  rw [← h, byteAt_append]

theorem u16At_append_of {pre bs : List UInt8} {n i : Nat} (h : pre.length = n) :
    u16At (pre ++ bs) (n + i) = u16At bs i := by
  unfold u16At
  rw [Nat.add_assoc, byteAt_append_of h, byteAt_append_of h]

theorem connectionAt_append {pre bs : List UInt8} {n : Nat} (h : pre.length = n) :
    ConnectionAt (pre ++ bs) n ↔ ConnectionAt bs 0 := by
  have h0 : u16At (pre ++ bs) n = u16At bs 0 := u16At_append_of (i := 0) h
  unfold ConnectionAt
  simp only [h0, u16At_append_of h, Nat.zero_add]

theorem ownAddressAt_iff {c : Cfg} {t : OwnAddressType} (h : OwnAddressExists c t) {ps : List UInt8} {i : Nat}
    (hp : byteAt ps i = (ownAddressCode t).toNat) : OwnAddressAt c ps i := by
  unfold OwnAddressAt
  rw [hp]
  cases t with
  | pub => exact .inl (by decide)
  | random => exact .inl (by decide)
  | privateFallbackPublic => exact .inr ⟨h, by decide⟩
  | privateFallbackRandom => exact .inr ⟨h, by decide⟩

theorem scanAt_bytes {x : ScanWindow} (h : BuiltScanWindow x) (bs : List UInt8) :
    ScanAt (scanWindowBytes x ++ bs) 0 := by
  obtain ⟨i, w, h⟩ := h
  obtain ⟨rfl, rfl, h1, h2, h3⟩ := (C33_accept_iff i w x).mp h
  simp only [ScanWindow.interval, ScanWindow.window] at h1 h2 h3
  simp only [ScanAt, scanWindowBytes, le_two, List.cons_append, List.nil_append, u16At_succ, u16At_zero, units625us]
  simp only [us, ms] at *
  omega

theorem connectionAt_bytes {x : ConnectionInterval} {y : ExpectedConnectionLength} (hx : Built x)
    (hy : BuiltLength y) :
    ConnectionAt (connIntervalBytes x ++ connLengthBytes y) 0 ↔ LegalWhenWritten x := by
  have h := (built_iff x).mp hx
  obtain ⟨lo, hi, hy⟩ := hy
  obtain ⟨rfl, h1, h2⟩ := ((C36_accept_iff lo hi).1 y).mp hy
  have b1 := h.minBound
  have b2 := h.order
  have b3 := h.maxBound
  have b4 := h.latencyBound
  have b5 := h.timeoutLow
  have b6 := h.timeoutHigh
  have e1 : writtenInterval x.intervalMin.ns % 65536 = writtenInterval x.intervalMin.ns := by
    simp only [writtenInterval, us, ms, sec] at *; omega
  have e2 : writtenInterval x.intervalMax.ns % 65536 = writtenInterval x.intervalMax.ns := by
    simp only [writtenInterval, us, ms, sec] at *; omega
  have e3 : units10ms x.supervisionTimeout.ns % 65536 = units10ms x.supervisionTimeout.ns := by
    simp only [units10ms, us, ms, sec] at *; omega
  have e4 : x.connLatency.toNat % 65536 = x.connLatency.toNat := by omega
  simp only [ConnectionAt, connIntervalBytes, connLengthBytes, le16, le_two, List.cons_append, List.nil_append,
    u16At_succ, u16At_zero, e1, e2, e3, e4, LegalWhenWritten]
  have m1 : (1 + x.connLatency.toNat) * (125 * writtenInterval x.intervalMax.ns) * 2 =
      250 * ((1 + x.connLatency.toNat) * writtenInterval x.intervalMax.ns) := by
    rw [Nat.mul_left_comm, Nat.mul_comm, ← Nat.mul_assoc]
  rw [m1]
  generalize (1 + x.connLatency.toNat) * writtenInterval x.intervalMax.ns = z
  have f1 : 6 ≤ writtenInterval x.intervalMin.ns ↔ 8 * ms ≤ x.intervalMin.ns := by
    simp only [writtenInterval, us, ms, sec] at *; omega
  have f2 : writtenInterval x.intervalMin.ns ≤ writtenInterval x.intervalMax.ns := by
    simp only [writtenInterval, us, ms, sec] at *; omega
  have f3 : writtenInterval x.intervalMax.ns ≤ 0x0C80 := by
    simp only [writtenInterval, us, ms, sec] at *; omega
  have f4 : 0x000A ≤ units10ms x.supervisionTimeout.ns ∧ units10ms x.supervisionTimeout.ns ≤ 0x0C80 := by
    simp only [units10ms, us, ms, sec] at *; omega
  have f5 : units625us lo.ns % 65536 ≤ units625us hi.ns % 65536 := by
    simp only [units625us, us, ms, sec] at *; omega
  rw [f1]
  constructor
  · rintro ⟨h1, -, -, -, -, -, h7, -⟩
    exact ⟨h1, by omega⟩
  · rintro ⟨h1, h7⟩
    exact ⟨h1, f2, f3, by omega, f4.1, f4.2, by omega, f5⟩

theorem advInterval_bytes {c : Cfg} {x : AdvertisingInterval} (h : BuiltAdv c x) (bs : List UInt8) :
    let ps := advIntervalBytes x ++ bs
    (byteAt ps 4 ≠ 1 → 0x0020 ≤ u16At ps 0 ∧ u16At ps 0 ≤ u16At ps 2 ∧ u16At ps 2 ≤ 0x4000) ∧
    ((c.v50 = false → byteAt ps 4 = 2 ∨ byteAt ps 4 = 3 → 0x00A0 ≤ u16At ps 0) ↔
      (c.v50 = false → x.advertisingType = .nonConnectableUndirected → 100 * ms ≤ x.min.ns)) ∧
    byteAt ps 4 ≤ 4 ∧ ∀ i, byteAt ps (5 + i) = byteAt bs i := by
  have hb := h.bounds
  have hs : c.v50 = false → x.advertisingType = .scannableUndirected → 100 * ms ≤ x.min.ns := by
    intro hv ht
    obtain ⟨t, h | ⟨lo, hi, h⟩⟩ := h
    · rw [C34_build] at h
      split at h
      · cases h; cases ht
      · cases h
    · obtain ⟨rfl, h1, -⟩ := (C34_accept_iff _ _ _ _ _).mp h
      rwa [if_pos ⟨hv, ht⟩] at h1
  obtain ⟨lo, hi, t⟩ := x
  simp only at hb hs ⊢
  cases t <;> simp only [advIntervalBytes, reduceCtorEq, if_false, if_true, le_two, List.cons_append,
    List.nil_append, u16At_succ, u16At_zero, byteAt_succ, byteAt_zero, units625us, advTypeCode, ne_eq,
    false_or, true_implies, not_true_eq_false, false_implies, implies_true, true_and, and_true] at hb hs ⊢
  all_goals
    refine ⟨?_, ?_, by decide, fun i => by rw [Nat.add_comm]; rfl⟩
    · simp only [us, ms] at *
      have : UInt8.toNat 1 = 1 := rfl
      omega
    · clear h
      generalize c.v50 = v at *
      cases v <;> simp [us, ms] at hb hs ⊢ <;> omega

variable {E VS : Type} {c : Cfg}

/-- The packet of an accepted command, against the ranges of the standard. -/
theorem acceptable_iff (cmd : Command VS) (hc : cmd.Constructible c) (he : Expressible c cmd)
    (ha : cmdReject (E := E) cmd = none) :
    Acceptable c (cmdOpcode cmd) (cmdParams cmd) ↔ HandlesOk cmd ∧ IntervalsOk c cmd := by
  have hh (h : UInt16) : HandleAt (le16 h) 0 ↔ h.toNat ≤ 0x0EFF := by
    have := handleAt_le16 h []
    rwa [List.append_nil] at this
  cases cmd with
  | disconnect h r =>
    have hr : byteAt (le16 h.val ++ [(disconnectCode r).getD 0]) 2 ∈ [0x05, 0x13, 0x14, 0x15, 0x1A, 0x29, 0x3B] := by
      simp only [cmdReject] at ha
      have e : byteAt (le16 h.val ++ [(disconnectCode r).getD 0]) 2 = ((disconnectCode r).getD 0).toNat := rfl
      rw [e]
      cases r <;> simp [disconnectCode] at ha ⊢
    have := handleAt_le16 h.val [(disconnectCode r).getD 0]
    simp only [Acceptable, paramCount, RangesOk, cmdOpcode, cmdParams, HandlesOk, IntervalsOk]
    simp [this]
    intro _
    simpa using hr
  | setEventMask m =>
    have h : ∀ k < 64, HasBit (le64 m) (k / 8) (k % 8) → EventMaskBit k := fun k hk hb =>
      (declared_eventFlags c k).mp (he.2 k ((hasBit_le64 m k hk).mp hb))
    simp only [Acceptable, paramCount, RangesOk, cmdOpcode, cmdParams, HandlesOk, IntervalsOk]
    simp
    exact h
  | leSetEventMask m =>
    have h : ∀ k < 64, HasBit (le64 m) (k / 8) (k % 8) → LeEventMaskBit c k := fun k hk hb =>
      (declared_leEventFlags c k).mp (he.2 k ((hasBit_le64 m k hk).mp hb))
    simp only [Acceptable, paramCount, RangesOk, cmdOpcode, cmdParams, HandlesOk, IntervalsOk]
    simp
    exact h
  | readTxPowerLevel h t =>
    have := fun b : UInt8 => handleAt_le16 h.val [b]
    have e (b : UInt8) : byteAt (le16 h.val ++ [b]) 2 = b.toNat := rfl
    cases t <;> simp [Acceptable, paramCount, RangesOk, cmdOpcode, cmdParams, HandlesOk, IntervalsOk, this, e]
  | leSetRandomAddress a =>
    simp only [cmdReject] at ha
    split at ha
    · rename_i h
      simp only [Acceptable, paramCount, RangesOk, cmdOpcode, cmdParams, HandlesOk, IntervalsOk]
      simp [a.val.len]
      exact h
    · cases ha
  | leSetAdvertisingParameters p =>
    obtain ⟨-, ho, hm⟩ := he
    have hz : 1 ≤ p.advertisingChannelMap.toNat := by
      simp only [cmdReject] at ha
      split at ha
      · cases ha
      · rename_i h
        rcases Nat.eq_zero_or_pos p.advertisingChannelMap.toNat with h0 | h0
        · exact absurd (UInt8.toNat_inj.mp (by rw [h0]; rfl)) h
        · exact h0
    have hp : cmdParams (.leSetAdvertisingParameters (VS := VS) p) = advIntervalBytes p.advertisingInterval ++
        (ownAddressCode p.ownAddressType :: (addrTypeBytes p.peerAddress ++
          [p.advertisingChannelMap, advFilterCode p.advertisingFilterPolicy])) := by
      simp [cmdParams]
    obtain ⟨b1, b2, b3, b4⟩ := advInterval_bytes hc (ownAddressCode p.ownAddressType ::
      (addrTypeBytes p.peerAddress ++ [p.advertisingChannelMap, advFilterCode p.advertisingFilterPolicy]))
    rw [← hp] at b1 b2 b3 b4
    have hl : (cmdParams (.leSetAdvertisingParameters (VS := VS) p)).length = 15 := by simp [cmdParams]
    have al : (addrTypeBytes p.peerAddress).length = 7 := by simp
    generalize cmdParams (.leSetAdvertisingParameters (VS := VS) p) = ps at *
    have p5 : byteAt ps 5 = (ownAddressCode p.ownAddressType).toNat := b4 0
    have p6 : byteAt ps 6 ≤ 1 := by
      rw [show byteAt ps 6 = _ from b4 1]
      cases p.peerAddress
      · exact Nat.zero_le 1
      · exact Nat.le_refl 1
    have p13 : byteAt ps 13 = p.advertisingChannelMap.toNat := by
      rw [show byteAt ps 13 = _ from b4 8, byteAt_succ]
      exact byteAt_append_of (i := 0) al
    have p14 : byteAt ps 14 ≤ 3 := by
      rw [show byteAt ps 14 = _ from b4 9, byteAt_succ, show (8 : Nat) = 7 + 1 from rfl, byteAt_append_of al]
      cases p.advertisingFilterPolicy
      · exact Nat.zero_le 3
      · exact Nat.le_add_left 1 2
      · exact Nat.le_add_left 2 1
      · exact Nat.le_refl 3
    have p5' := ownAddressAt_iff ho p5
    simp only [Acceptable, paramCount, RangesOk, cmdOpcode, HandlesOk, IntervalsOk, hl]
    simp only [p6, p13, p14, hz, hm, b3, p5', and_true, true_and]
    rw [← b2]
    simp
    exact fun _ => by simpa using b1
  | leSetAdvertisingData d =>
    simp only [cmdReject] at ha
    split at ha
    · cases ha
    · simp only [Acceptable, paramCount, RangesOk, cmdOpcode, cmdParams, HandlesOk, IntervalsOk]
      simp [outboundData, byteAt_zero]
      omega
  | leSetScanResponseData d =>
    simp only [cmdReject] at ha
    split at ha
    · cases ha
    · simp only [Acceptable, paramCount, RangesOk, cmdOpcode, cmdParams, HandlesOk, IntervalsOk]
      simp [outboundData, byteAt_zero]
      omega
  | leSetScanParameters p =>
    obtain ⟨-, ho, hf⟩ := he
    have hs := scanAt_bytes hc [ownAddressCode p.ownAddressType, scanFilterCode p.filterPolicy]
    have h1 : ScanAt (cmdParams (.leSetScanParameters (VS := VS) p)) 1 := by
      simp only [cmdParams, List.append_assoc]
      exact hs
    have h0 : byteAt (cmdParams (.leSetScanParameters (VS := VS) p)) 0 ≤ 1 := by
      show (scanTypeCode p.scanType).toNat ≤ 1
      cases p.scanType <;> decide
    have h5 : OwnAddressAt c (cmdParams (.leSetScanParameters (VS := VS) p)) 5 := ownAddressAt_iff ho rfl
    have h6 : byteAt (cmdParams (.leSetScanParameters (VS := VS) p)) 6 ≤ 1 ∨
        (From42 c ∧ byteAt (cmdParams (.leSetScanParameters (VS := VS) p)) 6 ≤ 3) := by
      show (scanFilterCode p.filterPolicy).toNat ≤ 1 ∨ (From42 c ∧ (scanFilterCode p.filterPolicy).toNat ≤ 3)
      cases hfp : p.filterPolicy <;> rw [hfp] at hf
      · exact .inl (by decide)
      · exact .inl (by decide)
      · exact .inr ⟨hf, by decide⟩
      · exact .inr ⟨hf, by decide⟩
    have hl : (cmdParams (.leSetScanParameters (VS := VS) p)).length = 7 := by simp [cmdParams]
    simp only [Acceptable, paramCount, RangesOk, cmdOpcode, HandlesOk, IntervalsOk, hl, h0, h1, h5, h6]
    simp
  | leCreateConnection p =>
    obtain ⟨-, ho, hf⟩ := he
    obtain ⟨c1, c2, c3⟩ := hc
    have hp : ∃ f t a, cmdParams (.leCreateConnection (VS := VS) p) = scanWindowBytes p.scanWindow ++
        (f :: t :: a ++ (ownAddressCode p.ownAddressType ::
          (connIntervalBytes p.connInterval ++ connLengthBytes p.expectedConnectionLength))) ∧
        a.length = 6 ∧ f.toNat ≤ 1 ∧ (t.toNat ≤ 1 ∨ (From42 c ∧ t.toNat ≤ 3)) := by
      simp only [cmdParams]
      cases p.initiatorFilterPolicy
      · cases hpa : p.peerAddress with
        | publicDeviceAddress a =>
          exact ⟨0, 0, a.val.val, by simp [peerBytes], a.val.len, by decide, .inl (by decide)⟩
        | randomDeviceAddress a =>
          exact ⟨0, 1, a.val.val, by simp [peerBytes], a.val.len, by decide, .inl (by decide)⟩
        | publicIdentityAddress a =>
          rw [hpa] at hf
          exact ⟨0, 2, a.val.val, by simp [peerBytes], a.val.len, by decide, .inr ⟨hf, by decide⟩⟩
        | randomIdentityAddress a =>
          rw [hpa] at hf
          exact ⟨0, 3, a.val.val, by simp [peerBytes], a.val.len, by decide, .inr ⟨hf, by decide⟩⟩
      · exact ⟨1, 0, zeroes 6, by simp [zeroes, List.replicate_succ], by simp, by decide, .inl (by decide)⟩
    obtain ⟨f, t, a, hp, al, hf1, ht⟩ := hp
    have hs := scanAt_bytes c1 (f :: t :: a ++ (ownAddressCode p.ownAddressType ::
          (connIntervalBytes p.connInterval ++ connLengthBytes p.expectedConnectionLength)))
    have hk := connectionAt_bytes c2 c3
    have sl : (scanWindowBytes p.scanWindow).length = 4 := by simp
    have h12 : OwnAddressAt c (cmdParams (.leCreateConnection (VS := VS) p)) 12 := by
      refine ownAddressAt_iff ho ?_
      rw [hp, show (12 : Nat) = 4 + 8 from rfl, byteAt_append_of sl]
      show byteAt (a ++ _) (6 + 0) = _
      rw [byteAt_append_of al]
      rfl
    have h13 : ConnectionAt (cmdParams (.leCreateConnection (VS := VS) p)) 13 ↔ LegalWhenWritten p.connInterval := by
      rw [hp, ← hk, ← List.append_assoc]
      have : ∀ (pre bs : List UInt8) (b : UInt8), pre ++ b :: bs = (pre ++ [b]) ++ bs := by simp
      rw [this]
      exact connectionAt_append (by simp [al])
    have h4 : byteAt (cmdParams (.leCreateConnection (VS := VS) p)) 4 ≤ 1 := by
      rw [hp]
      exact hf1
    have h5 : byteAt (cmdParams (.leCreateConnection (VS := VS) p)) 5 ≤ 1 ∨
        (From42 c ∧ byteAt (cmdParams (.leCreateConnection (VS := VS) p)) 5 ≤ 3) := by
      rw [hp]
      exact ht
    have hl : (cmdParams (.leCreateConnection (VS := VS) p)).length = 25 := by
      rw [hp]
      simp [al]
    rw [← hp] at hs
    simp only [Acceptable, paramCount, RangesOk, cmdOpcode, HandlesOk, IntervalsOk, hl, hs, h4, h5, h12, h13]
    simp
  | leAddDeviceToWhiteList a =>
    cases a <;> simp [Acceptable, paramCount, RangesOk, cmdOpcode, cmdParams, HandlesOk, IntervalsOk, addrTypeBytes, byteAt_zero]
  | leRemoveDeviceFromWhiteList a =>
    cases a <;> simp [Acceptable, paramCount, RangesOk, cmdOpcode, cmdParams, HandlesOk, IntervalsOk, addrTypeBytes, byteAt_zero]
  | leConnectionUpdate p =>
    obtain ⟨c2, c3⟩ := hc
    have hk := connectionAt_bytes c2 c3
    have hp : cmdParams (.leConnectionUpdate (VS := VS) p) = le16 p.connHandle.val ++
        (connIntervalBytes p.connInterval ++ connLengthBytes p.expectedConnectionLength) := by simp [cmdParams]
    have h0 : HandleAt (cmdParams (.leConnectionUpdate (VS := VS) p)) 0 ↔ p.connHandle.val.toNat ≤ 0x0EFF := by
      rw [hp]
      exact handleAt_le16 _ _
    have h2 : ConnectionAt (cmdParams (.leConnectionUpdate (VS := VS) p)) 2 ↔ LegalWhenWritten p.connInterval := by
      rw [hp, ← hk]
      exact connectionAt_append (by simp)
    have hl : (cmdParams (.leConnectionUpdate (VS := VS) p)).length = 14 := by simp [cmdParams]
    simp only [Acceptable, paramCount, RangesOk, cmdOpcode, HandlesOk, IntervalsOk, hl, h0, h2]
    simp
  | leSetHostChannelClassification ch =>
    have hl := ch.arr.len
    have h4 := he.2
    simp only at h4
    simp only [cmdReject] at ha
    split at ha
    · cases ha
    · rename_i h
      simp only [Acceptable, paramCount, RangesOk, cmdOpcode, cmdParams, HandlesOk, IntervalsOk]
      simp [hl, h4]
      simpa using h
  | leStartEncryption p =>
    have := handleAt_le16 p.connHandle.val (le64 p.randomNumber ++ (le16 p.encryptedDiversifier ++ p.longTermKey.val))
    simp [Acceptable, paramCount, RangesOk, cmdOpcode, cmdParams, HandlesOk, IntervalsOk, p.longTermKey.len, this]
  | leLongTermKeyRequestReply h key =>
    have := handleAt_le16 h.val key.val
    simp [Acceptable, paramCount, RangesOk, cmdOpcode, cmdParams, HandlesOk, IntervalsOk, key.len, this]
  | leReceiverTest ch =>
    simp only [cmdReject] at ha
    split at ha
    · cases ha
    · simp [Acceptable, paramCount, RangesOk, cmdOpcode, cmdParams, HandlesOk, IntervalsOk, byteAt_zero]
      omega
  | leTransmitterTest ch n p =>
    simp only [cmdReject] at ha
    split at ha
    · cases ha
    · split at ha
      · cases ha
      · cases p <;> simp [Acceptable, paramCount, RangesOk, cmdOpcode, cmdParams, HandlesOk, IntervalsOk, byteAt_zero, byteAt_succ, testPayloadCode] <;> omega
  | leSetAdvertiseEnable b => cases b <;> simp [Acceptable, paramCount, RangesOk, cmdOpcode, cmdParams, HandlesOk, IntervalsOk, byteAt_zero, flagByte]
  | leSetAdvertisingEnable b => cases b <;> simp [Acceptable, paramCount, RangesOk, cmdOpcode, cmdParams, HandlesOk, IntervalsOk, byteAt_zero, flagByte]
  | leSetScanEnable e f => cases e <;> cases f <;> simp [Acceptable, paramCount, RangesOk, cmdOpcode, cmdParams, HandlesOk, IntervalsOk, byteAt_zero, byteAt_succ, flagByte]
  | leAddAnonAdvertisingDevicesToWhiteList =>
    have h5 : c.v50 = true := he.1
    simp [Acceptable, paramCount, RangesOk, cmdOpcode, cmdParams, HandlesOk, IntervalsOk, byteAt_zero, h5]
  | leRemoveAnonAdvertisingDevicesFromWhiteList =>
    have h5 : c.v50 = true := he.1
    simp [Acceptable, paramCount, RangesOk, cmdOpcode, cmdParams, HandlesOk, IntervalsOk, byteAt_zero, h5]
  | leEncrypt p => simp [Acceptable, paramCount, RangesOk, cmdOpcode, cmdParams, HandlesOk, IntervalsOk, p.key.len, p.plaintextData.len]
  | _ =>
    simp [Acceptable, paramCount, RangesOk, cmdOpcode, cmdParams, HandlesOk, IntervalsOk, hh]

end Bt
