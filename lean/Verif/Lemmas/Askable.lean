import Verif.Spec.Askable
import Verif.Lemmas.Acceptable

/-! # Which packets of the standard can be asked for -/

namespace Bt

open Spec

theorem le_two_bytes (a b : UInt8) : le 2 (a.toNat + 256 * b.toNat) = [a, b] := by
  rw [le_two, List.cons.injEq, List.cons.injEq]
  have := a.toNat_lt
  have := b.toNat_lt
  refine ⟨UInt8.toNat_inj.mp ?_, UInt8.toNat_inj.mp ?_, rfl⟩ <;> rw [UInt8.toNat_ofNat'] <;> omega

theorem u16_lt (a b : UInt8) : a.toNat + 256 * b.toNat < 65536 := by
  have := a.toNat_lt
  have := b.toNat_lt
  omega

theorem le16_u16 (a b : UInt8) : le16 (UInt16.ofNat (a.toNat + 256 * b.toNat)) = [a, b] := by
  rw [le16, UInt16.toNat_ofNat', Nat.mod_eq_of_lt (u16_lt a b), le_two_bytes]

/-- A duration of `n` nanoseconds. -/
theorem exists_duration {n : Nat} (h : n ≤ 100 * sec) : ∃ d : Duration, d.ns = n :=
  ⟨⟨n, Nat.lt_of_le_of_lt h (by decide)⟩, rfl⟩

theorem scanWindow_exists {i w : Nat} (h1 : 4 ≤ w) (h2 : w ≤ i) (h3 : i ≤ 0x4000) :
    ∃ x, BuiltScanWindow x ∧ scanWindowBytes x = le 2 i ++ le 2 w := by
  obtain ⟨di, ei⟩ := exists_duration (n := 625 * us * i) (by simp only [us, sec]; omega)
  obtain ⟨dw, ew⟩ := exists_duration (n := 625 * us * w) (by simp only [us, sec]; omega)
  refine ⟨⟨di, dw⟩, ⟨di, dw, (C33_accept_iff _ _ _).mpr ⟨rfl, rfl, ?_⟩⟩, ?_⟩
  · rw [ei, ew]
    simp only [us, ms]
    omega
  · simp only [scanWindowBytes, ei, ew, units625us]
    rw [Nat.mul_div_cancel_left _ (by decide), Nat.mul_div_cancel_left _ (by decide)]

theorem advInterval_exists (c : Cfg) {t : AdvertisingType} (ht : t ≠ .connectableDirectedHighDutyCycle) {lo hi : Nat}
    (h1 : 0x20 ≤ lo) (h2 : lo ≤ hi) (h3 : hi ≤ 0x4000)
    (h4 : c.v50 = false → t = .scannableUndirected → 0xA0 ≤ lo) :
    ∃ x, BuiltAdv c x ∧ advIntervalBytes x = le 2 lo ++ le 2 hi ++ [advTypeCode t] := by
  obtain ⟨dl, el⟩ := exists_duration (n := 625 * us * lo) (by simp only [us, sec]; omega)
  obtain ⟨dh, eh⟩ := exists_duration (n := 625 * us * hi) (by simp only [us, sec]; omega)
  refine ⟨⟨dl, dh, t⟩, ⟨t, .inr ⟨dl, dh, (C34_accept_iff _ _ _ _ _).mpr ⟨rfl, ?_⟩⟩⟩, ?_⟩
  · rw [el, eh]
    split
    · rename_i h
      have := h4 h.1 h.2
      simp only [us, ms]
      omega
    · simp only [us, ms]
      omega
  · simp only [advIntervalBytes, if_neg ht, el, eh, units625us]
    rw [Nat.mul_div_cancel_left _ (by decide), Nat.mul_div_cancel_left _ (by decide)]

theorem advInterval_high_duty (c : Cfg) : ∃ x, BuiltAdv c x ∧ advIntervalBytes x = [0, 0, 0, 0, 1] :=
  ⟨_, ⟨.connectableDirectedHighDutyCycle, .inl (C34_build _)⟩, rfl⟩

theorem connLength_exists {lo hi : Nat} (h1 : lo ≤ hi) (h2 : hi < 65536) :
    ∃ x, BuiltLength x ∧ connLengthBytes x = le 2 lo ++ le 2 hi := by
  obtain ⟨dl, el⟩ := exists_duration (n := 625 * us * lo) (by simp only [us, sec]; omega)
  obtain ⟨dh, eh⟩ := exists_duration (n := 625 * us * hi) (by simp only [us, sec]; omega)
  refine ⟨⟨dl, dh⟩, ⟨dl, dh, ((C36_accept_iff _ _).1 _).mpr ⟨rfl, ?_⟩⟩, ?_⟩
  · rw [el, eh]
    simp only [us]
    omega
  · simp only [connLengthBytes, el, eh, units625us]
    rw [Nat.mul_div_cancel_left _ (by decide), Nat.mul_div_cancel_left _ (by decide)]

/-- The timeout closest to the next unit. -/
theorem timeout_exists {m t : Nat} (h1 : 10 ≤ t) (h2 : t ≤ 3200) (h3 : m < min (10 * (t + 1)) 32000) :
    ∃ d : Duration, units10ms d.ns = t ∧ m * ms < d.ns ∧ 100 * ms < d.ns ∧ d.ns ≤ 32 * sec := by
  by_cases ht : t = 3200
  · obtain ⟨d, e⟩ := exists_duration (n := 32 * sec) (by decide)
    refine ⟨d, ?_⟩
    rw [e]
    simp only [units10ms, ms, sec]
    omega
  · obtain ⟨d, e⟩ := exists_duration (n := 10 * (t + 1) * ms - 1) (by simp only [ms, sec]; omega)
    refine ⟨d, ?_⟩
    rw [e]
    simp only [units10ms, ms, sec]
    omega

theorem room_feasible {z t : Nat} (h : z < min (10 * (t + 1)) 32000) : z * ms < 32 * sec := by
  simp only [ms, sec]
  omega

theorem room_of_timeout {z d : Nat} (h1 : z * ms < d) (h2 : d ≤ 32 * sec) :
    z < min (10 * (units10ms d + 1)) 32000 := by
  simp only [units10ms, ms, sec] at *
  omega

theorem connInterval_exists {lo hi t : Nat} {lat : UInt16} (h1 : 6 ≤ lo) (h2 : lo ≤ hi) (h3 : hi ≤ 3200)
    (h4 : lat.toNat ≤ 499) (h5 : 10 ≤ t) (h6 : t ≤ 3200)
    (h7 : 2 * (1 + lat.toNat) * ((5 * hi + 3) / 4) < min (10 * (t + 1)) 32000) :
    ∃ x, Built x ∧ connIntervalBytes x = le 2 lo ++ le 2 hi ++ le16 lat ++ le 2 t := by
  obtain ⟨dl, el⟩ := exists_duration (n := (5 * lo + 3) / 4 * ms) (by simp only [ms, sec]; omega)
  obtain ⟨dh, eh⟩ := exists_duration (n := (5 * hi + 3) / 4 * ms) (by simp only [ms, sec]; omega)
  obtain ⟨dt, t1, t2, t3, t4⟩ := timeout_exists h5 h6 h7
  have hm : minTimeout dh.ns lat.toNat = 2 * (1 + lat.toNat) * ((5 * hi + 3) / 4) * ms := by
    rw [minTimeout, eh, Nat.mul_comm, ← Nat.mul_assoc, ← Nat.mul_assoc]
  refine ⟨⟨dl, dh, lat, dt⟩, (built_iff _).mpr ⟨?_, ?_, ?_, h4, ?_, ?_, t3, t4⟩, ?_⟩
  · rw [el]
    simp only [us, ms]
    omega
  · rw [el, eh]
    exact Nat.mul_le_mul_right _ (by omega)
  · rw [eh]
    simp only [ms, sec]
    omega
  · rw [hm]
    exact room_feasible h7
  · rw [hm]
    exact t2
  · have e1 (u : Nat) : writtenInterval ((5 * u + 3) / 4 * ms) = u := by
      rw [writtenInterval, Nat.mul_div_cancel _ (by decide)]
      omega
    simp only [connIntervalBytes, el, eh, e1, t1]

/-- What is written of connection parameters leaves room. -/
theorem room_of_built {x : ConnectionInterval} (h : Built x) (bs : List UInt8) :
    RoomAt (connIntervalBytes x ++ bs) 0 := by
  have h := (built_iff x).mp h
  have b2 := h.order
  have b3 := h.maxBound
  have b4 := h.latencyBound
  have b5 := h.timeoutAbove
  have b6 := h.timeoutHigh
  have e2 : writtenInterval x.intervalMax.ns % 65536 = writtenInterval x.intervalMax.ns := by
    simp only [writtenInterval, ms, sec] at *; omega
  have e3 : units10ms x.supervisionTimeout.ns % 65536 = units10ms x.supervisionTimeout.ns := by
    simp only [units10ms, ms, sec] at *; omega
  have e4 : x.connLatency.toNat % 65536 = x.connLatency.toNat := by omega
  simp only [RoomAt, connIntervalBytes, le16, le_two, List.cons_append, List.nil_append, Nat.zero_add,
    u16At_succ, u16At_zero, e2, e3, e4]
  have m1 : (5 * writtenInterval x.intervalMax.ns + 3) / 4 * ms ≤ x.intervalMax.ns := by
    simp only [writtenInterval, ms]
    omega
  have m2 : 2 * (1 + x.connLatency.toNat) * ((5 * writtenInterval x.intervalMax.ns + 3) / 4) * ms ≤
      minTimeout x.intervalMax.ns x.connLatency.toNat := by
    rw [minTimeout, Nat.mul_comm _ 2, ← Nat.mul_assoc, Nat.mul_assoc _ _ ms]
    exact Nat.mul_le_mul_left _ m1
  generalize 2 * (1 + x.connLatency.toNat) * ((5 * writtenInterval x.intervalMax.ns + 3) / 4) = z at m2 ⊢
  exact room_of_timeout (Nat.lt_of_le_of_lt m2 b5) b6

theorem roomAt_append {pre bs : List UInt8} {n : Nat} (h : pre.length = n) :
    RoomAt (pre ++ bs) n ↔ RoomAt bs 0 := by
  unfold RoomAt
  simp only [u16At_append_of h, Nat.zero_add]

theorem roomAt_drop (ps : List UInt8) (n i : Nat) : RoomAt (ps.drop n) i ↔ RoomAt ps (n + i) := by
  have hb (j : Nat) : byteAt (ps.drop n) j = byteAt ps (n + j) := by
    simp [byteAt, List.getD_eq_getElem?_getD]
  simp only [RoomAt, u16At, hb, Nat.add_assoc]

/-! ## Codes -/

theorem u8_eq_of_toNat {b : UInt8} {n : Nat} (h : b.toNat = n) : b = UInt8.ofNat n := by
  rw [← h, UInt8.ofNat_toNat]

theorem u8_le_one {b : UInt8} (h : b.toNat ≤ 1) : b = 0 ∨ b = 1 := by
  rcases (by omega : b.toNat = 0 ∨ b.toNat = 1) with h | h
  · exact .inl (u8_eq_of_toNat h)
  · exact .inr (u8_eq_of_toNat h)

theorem u8_le_three {b : UInt8} (h : b.toNat ≤ 3) : b = 0 ∨ b = 1 ∨ b = 2 ∨ b = 3 := by
  rcases (by omega : b.toNat = 0 ∨ b.toNat = 1 ∨ b.toNat = 2 ∨ b.toNat = 3) with h | h | h | h
  · exact .inl (u8_eq_of_toNat h)
  · exact .inr (.inl (u8_eq_of_toNat h))
  · exact .inr (.inr (.inl (u8_eq_of_toNat h)))
  · exact .inr (.inr (.inr (u8_eq_of_toNat h)))

theorem u8_le_three_from {P : Prop} {b : UInt8} (h : b.toNat ≤ 1 ∨ (P ∧ b.toNat ≤ 3)) :
    b = 0 ∨ b = 1 ∨ (P ∧ b = 2) ∨ (P ∧ b = 3) := by
  rcases h with h | ⟨h, h'⟩
  · rcases u8_le_one h with h | h
    · exact .inl h
    · exact .inr (.inl h)
  · rcases u8_le_three h' with h' | h' | h' | h'
    · exact .inl h'
    · exact .inr (.inl h')
    · exact .inr (.inr (.inl ⟨h, h'⟩))
    · exact .inr (.inr (.inr ⟨h, h'⟩))

theorem ownAddress_exists {c : Cfg} {b : UInt8} (h : b.toNat ≤ 1 ∨ (From42 c ∧ b.toNat ≤ 3)) :
    ∃ t, OwnAddressExists c t ∧ ownAddressCode t = b := by
  rcases u8_le_three_from h with rfl | rfl | ⟨hv, rfl⟩ | ⟨hv, rfl⟩
  · exact ⟨.pub, trivial, rfl⟩
  · exact ⟨.random, trivial, rfl⟩
  · exact ⟨.privateFallbackPublic, hv, rfl⟩
  · exact ⟨.privateFallbackRandom, hv, rfl⟩

theorem scanFilter_exists {c : Cfg} {b : UInt8} (h : b.toNat ≤ 1 ∨ (From42 c ∧ b.toNat ≤ 3)) :
    ∃ t, ScanFilterExists c t ∧ scanFilterCode t = b := by
  rcases u8_le_three_from h with rfl | rfl | ⟨hv, rfl⟩ | ⟨hv, rfl⟩
  · exact ⟨.acceptAll, trivial, rfl⟩
  · exact ⟨.whiteList, trivial, rfl⟩
  · exact ⟨.addressedToThisDevice, hv, rfl⟩
  · exact ⟨.whiteListAddressedToThisDevice, hv, rfl⟩

theorem peerAddress_exists {c : Cfg} {b : UInt8} {a : List UInt8} (ha : a.length = 6)
    (h : b.toNat ≤ 1 ∨ (From42 c ∧ b.toNat ≤ 3)) : ∃ t, PeerAddressExists c t ∧ peerBytes t = b :: a := by
  rcases u8_le_three_from h with rfl | rfl | ⟨hv, rfl⟩ | ⟨hv, rfl⟩
  · exact ⟨.publicDeviceAddress ⟨⟨a, ha⟩⟩, trivial, rfl⟩
  · exact ⟨.randomDeviceAddress ⟨⟨a, ha⟩⟩, trivial, rfl⟩
  · exact ⟨.publicIdentityAddress ⟨⟨a, ha⟩⟩, hv, rfl⟩
  · exact ⟨.randomIdentityAddress ⟨⟨a, ha⟩⟩, hv, rfl⟩

theorem addrType_exists {b : UInt8} {a : List UInt8} (ha : a.length = 6) (h : b.toNat ≤ 1) :
    ∃ t, addrTypeBytes t = b :: a := by
  rcases u8_le_one h with rfl | rfl
  · exact ⟨.pub ⟨⟨a, ha⟩⟩, rfl⟩
  · exact ⟨.random ⟨⟨a, ha⟩⟩, rfl⟩

theorem advFilter_exists {b : UInt8} (h : b.toNat ≤ 3) : ∃ t, advFilterCode t = b := by
  rcases u8_le_three h with rfl | rfl | rfl | rfl
  · exact ⟨.allowConnectionAndScan, rfl⟩
  · exact ⟨.allowConnectionWhiteListScan, rfl⟩
  · exact ⟨.whiteListConnectionAllowScan, rfl⟩
  · exact ⟨.whiteListConnectionAndScan, rfl⟩

theorem advType_exists {b : UInt8} (h : b.toNat ≤ 4) : ∃ t, advTypeCode t = b := by
  rcases (by omega : b.toNat ≤ 3 ∨ b.toNat = 4) with h | h
  · rcases u8_le_three h with rfl | rfl | rfl | rfl
    · exact ⟨.connectableUndirected, rfl⟩
    · exact ⟨.connectableDirectedHighDutyCycle, rfl⟩
    · exact ⟨.scannableUndirected, rfl⟩
    · exact ⟨.nonConnectableUndirected, rfl⟩
  · exact ⟨.connectableDirectedLowDutyCycle, (u8_eq_of_toNat h).symm⟩

theorem scanType_exists {b : UInt8} (h : b.toNat ≤ 1) : ∃ t, scanTypeCode t = b := by
  rcases u8_le_one h with rfl | rfl
  · exact ⟨.passive, rfl⟩
  · exact ⟨.active, rfl⟩

theorem flag_exists {b : UInt8} (h : b.toNat ≤ 1) : ∃ t, flagByte t = b := by
  rcases u8_le_one h with rfl | rfl
  · exact ⟨false, rfl⟩
  · exact ⟨true, rfl⟩

theorem testPayload_exists {b : UInt8} (h : b.toNat ≤ 7) : ∃ t, testPayloadCode t = b := by
  rcases (by omega : b.toNat ≤ 3 ∨ b.toNat = 4 ∨ b.toNat = 5 ∨ b.toNat = 6 ∨ b.toNat = 7) with h | h | h | h | h
  · rcases u8_le_three h with rfl | rfl | rfl | rfl
    · exact ⟨.prbS9, rfl⟩
    · exact ⟨.nibbles10, rfl⟩
    · exact ⟨.bits10, rfl⟩
    · exact ⟨.prbS15, rfl⟩
  · exact ⟨.all1, (u8_eq_of_toNat h).symm⟩
  · exact ⟨.all0, (u8_eq_of_toNat h).symm⟩
  · exact ⟨.nibbles01, (u8_eq_of_toNat h).symm⟩
  · exact ⟨.bits01, (u8_eq_of_toNat h).symm⟩

theorem disconnectReason_exists (VS : Type) {b : UInt8}
    (h : b.toNat ∈ [0x05, 0x13, 0x14, 0x15, 0x1A, 0x29, 0x3B]) : ∃ r : Status VS, disconnectCode r = some b := by
  simp only [List.mem_cons, List.not_mem_nil, or_false] at h
  rcases h with h | h | h | h | h | h | h <;> rw [u8_eq_of_toNat h]
  · exact ⟨.authFailure, rfl⟩
  · exact ⟨.remoteTerminationByUser, rfl⟩
  · exact ⟨.remoteTerminationLowResources, rfl⟩
  · exact ⟨.remoteTerminationPowerOff, rfl⟩
  · exact ⟨.unsupportedRemoteFeature, rfl⟩
  · exact ⟨.pairingWithUnitKeyNotSupported, rfl⟩
  · exact ⟨.unacceptableConnectionParameters, rfl⟩

theorem mask_exists {ps : List UInt8} (hl : ps.length = 8) {P : Nat → Prop}
    (h : ∀ k < 64, HasBit ps (k / 8) (k % 8) → P k) :
    ∃ m : UInt64, le64 m = ps ∧ ∀ k, m.toNat.testBit k = true → P k := by
  refine ⟨UInt64.ofNat (leNat ps), le64_ofNat_leNat ps hl, fun k hk => ?_⟩
  have hk64 : k < 64 := by
    refine Nat.lt_of_not_le fun hn => ?_
    rw [Nat.testBit_lt_two_pow (Nat.lt_of_lt_of_le (UInt64.toNat_lt _)
      (Nat.pow_le_pow_right (by decide) hn))] at hk
    cases hk
  refine h k hk64 ?_
  have := (hasBit_le64 (UInt64.ofNat (leNat ps)) k hk64).mpr hk
  rwa [le64_ofNat_leNat ps hl] at this

/-! ## Commands -/

variable {E VS : Type} {c : Cfg}

/-- A call that can be written down, is not rejected, and is written as `ps`. -/
def Reached (E VS : Type) (c : Cfg) (op : UInt16) (ps : List UInt8) : Prop :=
  ∃ cmd : Command VS, cmd.Constructible c ∧ Expressible c cmd ∧ cmdReject (E := E) cmd = none ∧
    cmdOpcode cmd = op ∧ cmdParams cmd = ps

theorem handle_exists (a b : UInt8) : ∃ h : ConnectionHandle, le16 h.val = [a, b] := ⟨⟨_⟩, le16_u16 a b⟩

theorem reached_connection {bs : List UInt8} (hl : bs.length = 12) (h : ConnectionAt bs 0) (hr : RoomAt bs 0) :
    ∃ x y, Built x ∧ BuiltLength y ∧ connIntervalBytes x ++ connLengthBytes y = bs := by
  match bs, hl with
  | [a0, a1, a2, a3, a4, a5, a6, a7, a8, a9, a10, a11], _ =>
    obtain ⟨h1, h2, h3, h4, h5, h6, -, h8⟩ := h
    have e4 : (UInt16.ofNat (a4.toNat + 256 * a5.toNat)).toNat = a4.toNat + 256 * a5.toNat := by
      rw [UInt16.toNat_ofNat', Nat.mod_eq_of_lt (u16_lt _ _)]
    obtain ⟨x, hx, ex⟩ := connInterval_exists (lat := UInt16.ofNat (a4.toNat + 256 * a5.toNat)) h1 h2 h3
      (by rw [e4]; exact h4) h5 h6 (by rw [e4]; exact hr)
    obtain ⟨y, hy, ey⟩ := connLength_exists h8 (u16_lt a10 a11)
    refine ⟨x, y, hx, hy, ?_⟩
    rw [ex, ey]
    show le 2 (a0.toNat + 256 * a1.toNat) ++ le 2 (a2.toNat + 256 * a3.toNat) ++ _ ++
      le 2 (a6.toNat + 256 * a7.toNat) ++ (le 2 (a8.toNat + 256 * a9.toNat) ++ le 2 (a10.toNat + 256 * a11.toNat)) = _
    simp only [le_two_bytes, le16_u16, List.cons_append, List.nil_append]

theorem reached_advertising {ps : List UInt8} (hl : ps.length = 15) (h : RangesOk c 0x2006 ps) :
    Reached E VS c 0x2006 (significant 0x2006 ps) := by
  obtain ⟨-, -, -, -, h, -⟩ := h
  obtain ⟨h1, h2, h3, h4, h5, h6, h7, h8⟩ := h rfl
  match ps, hl with
  | [a0, a1, a2, a3, a4, a5, a6, a7, a8, a9, a10, a11, a12, a13, a14], _ =>
    obtain ⟨t, ht⟩ := advType_exists (b := a4) h3
    obtain ⟨o, ho, eo⟩ := ownAddress_exists (b := a5) h4
    obtain ⟨p, ep⟩ := addrType_exists (b := a6) (a := [a7, a8, a9, a10, a11, a12]) rfl h5
    obtain ⟨f, ef⟩ := advFilter_exists (b := a14) h8
    have hm : a13 ≠ 0 := by
      rintro rfl
      exact absurd (show 1 ≤ (0 : UInt8).toNat from h6) (by decide)
    have go (x : AdvertisingInterval) (hx : BuiltAdv c x) (bs : List UInt8)
        (ex : advIntervalBytes x ++ [a5, a6, a7, a8, a9, a10, a11, a12, a13, a14] = bs) : Reached E VS c 0x2006 bs := by
      refine ⟨.leSetAdvertisingParameters ⟨x, o, p, a13, f⟩, hx, ⟨trivial, ho, h7⟩, if_neg hm, rfl, ?_⟩
      rw [← ex]
      simp [cmdParams, eo, ep, ef]
    by_cases h1' : t = .connectableDirectedHighDutyCycle
    · subst h1'
      cases ht
      obtain ⟨x, hx, ex⟩ := advInterval_high_duty c
      exact go x hx _ (by rw [ex]; rfl)
    · have h4' : a4.toNat ≠ 1 := by
        rw [← ht]
        cases t <;> first | exact absurd rfl h1' | decide
      obtain ⟨b1, b2, b3⟩ := h1 h4'
      obtain ⟨x, hx, ex⟩ := advInterval_exists c h1' b1 b2 b3 fun hv hs =>
        h2 hv (.inl (by show a4.toNat = 2; rw [← ht, hs]; rfl))
      refine go x hx _ ?_
      rw [ex, ht]
      show le 2 (a0.toNat + 256 * a1.toNat) ++ le 2 (a2.toNat + 256 * a3.toNat) ++ [a4] ++ _ = _
      rw [le_two_bytes, le_two_bytes, significant, if_neg fun h => h4' h.2]
      rfl

theorem reached_data {op : UInt16} {ps : List UInt8} (hl : ps.length = 32) (ho : op = 0x2008 ∨ op = 0x2009)
    (h : byteAt ps 0 ≤ 31) : Reached E VS c op (significant op ps) := by
  match ps with
  | [] => cases hl
  | b :: bs =>
    have hl : bs.length = 31 := by simpa using hl
    have hb : b.toNat ≤ 31 := h
    have hs : significant op (b :: bs) = outboundData (bs.take b.toNat) := by
      have hn : ¬ (op = 0x2006 ∧ byteAt (b :: bs) 4 = 1) := fun h => by
        rcases ho with rfl | rfl <;> exact absurd h.1 (by decide)
      rw [significant, if_neg hn, if_pos ho, outboundData, byteAt_zero, Nat.add_comm, List.take_succ_cons]
      simp [hl, Nat.min_eq_left hb]
    rw [hs]
    have hd : ¬ 31 < (bs.take b.toNat).length := by
      rw [List.length_take]
      omega
    rcases ho with rfl | rfl
    · exact ⟨.leSetAdvertisingData (bs.take b.toNat), trivial, ⟨trivial, trivial⟩, if_neg hd, rfl, rfl⟩
    · exact ⟨.leSetScanResponseData (bs.take b.toNat), trivial, ⟨trivial, trivial⟩, if_neg hd, rfl, rfl⟩

theorem reached_scan {ps : List UInt8} (hl : ps.length = 7) (h : RangesOk c 0x200B ps) :
    Reached E VS c 0x200B (significant 0x200B ps) := by
  obtain ⟨-, -, -, -, -, -, -, h, -⟩ := h
  obtain ⟨h1, ⟨h2, h3, h4⟩, h5, h6⟩ := h rfl
  match ps, hl with
  | [a0, a1, a2, a3, a4, a5, a6], _ =>
    obtain ⟨t, et⟩ := scanType_exists (b := a0) h1
    obtain ⟨w, hw, ew⟩ := scanWindow_exists h2 h3 h4
    obtain ⟨o, ho, eo⟩ := ownAddress_exists (b := a5) h5
    obtain ⟨f, hf, ef⟩ := scanFilter_exists (b := a6) h6
    refine ⟨.leSetScanParameters ⟨t, w, o, f⟩, hw, ⟨trivial, ho, hf⟩, rfl, rfl, ?_⟩
    have ew : scanWindowBytes w = [a1, a2, a3, a4] := by
      rw [ew]
      show le 2 (a1.toNat + 256 * a2.toNat) ++ le 2 (a3.toNat + 256 * a4.toNat) = _
      rw [le_two_bytes, le_two_bytes]
      rfl
    simp only [cmdParams, et, ew, eo, ef]
    rfl

theorem reached_create {ps : List UInt8} (hl : ps.length = 25) (h : RangesOk c 0x200D ps) (hr : RoomAt ps 13) :
    Reached E VS c 0x200D (significant 0x200D ps) := by
  obtain ⟨-, -, -, -, -, -, -, -, -, h, -⟩ := h
  obtain ⟨⟨h1, h2, h3⟩, h4, h5, h6, h7⟩ := h rfl
  match ps, hl with
  | [a0, a1, a2, a3, a4, a5, a6, a7, a8, a9, a10, a11, a12, b0, b1, b2, b3, b4, b5, b6, b7, b8, b9, b10, b11], _ =>
    obtain ⟨w, hw, ew⟩ := scanWindow_exists h1 h2 h3
    have ew' : scanWindowBytes w = [a0, a1, a2, a3] := by
      rw [ew]
      show le 2 (a0.toNat + 256 * a1.toNat) ++ le 2 (a2.toNat + 256 * a3.toNat) = _
      rw [le_two_bytes, le_two_bytes]
      rfl
    obtain ⟨p, hp, ep⟩ := peerAddress_exists (b := a5) (a := [a6, a7, a8, a9, a10, a11]) rfl h5
    obtain ⟨o, ho, eo⟩ := ownAddress_exists (b := a12) h6
    obtain ⟨x, y, hx, hy, exy⟩ := reached_connection (bs := [b0, b1, b2, b3, b4, b5, b6, b7, b8, b9, b10, b11]) rfl h7 hr
    rcases u8_le_one (b := a4) h4 with rfl | rfl
    · refine ⟨.leCreateConnection ⟨w, .useAddress, p, o, x, y⟩, ⟨hw, hx, hy⟩, ⟨trivial, ho, hp⟩, rfl, rfl, ?_⟩
      simp only [cmdParams, ew', ep, eo, List.append_assoc, exy]
      rfl
    · refine ⟨.leCreateConnection ⟨w, .whiteList, p, o, x, y⟩, ⟨hw, hx, hy⟩, ⟨trivial, ho, hp⟩, rfl, rfl, ?_⟩
      simp only [cmdParams, ew', eo, List.append_assoc, exy]
      rfl

theorem reached_update {ps : List UInt8} (hl : ps.length = 14) (h : RangesOk c 0x2013 ps) (hr : RoomAt ps 2) :
    Reached E VS c 0x2013 (significant 0x2013 ps) := by
  obtain ⟨-, -, -, -, -, -, -, -, -, -, -, h, -⟩ := h
  obtain ⟨-, h7⟩ := h rfl
  match ps, hl with
  | [a0, a1, b0, b1, b2, b3, b4, b5, b6, b7, b8, b9, b10, b11], _ =>
    obtain ⟨k, ek⟩ := handle_exists a0 a1
    obtain ⟨x, y, hx, hy, exy⟩ := reached_connection (bs := [b0, b1, b2, b3, b4, b5, b6, b7, b8, b9, b10, b11]) rfl h7 hr
    refine ⟨.leConnectionUpdate ⟨k, x, y⟩, ⟨hx, hy⟩, ⟨trivial, trivial⟩, rfl, rfl, ?_⟩
    simp only [cmdParams, ek, List.append_assoc, exy]
    rfl

theorem reached_white_list {op : UInt16} {ps : List UInt8} (hl : ps.length = 7) (ho : op = 0x2011 ∨ op = 0x2012)
    (h : byteAt ps 0 ≤ 1 ∨ (c.v50 = true ∧ byteAt ps 0 = 0xFF)) : Reached E VS c op (significant op ps) := by
  match ps, hl with
  | [a0, a1, a2, a3, a4, a5, a6], _ =>
    rcases h with h | ⟨hv, h⟩
    · obtain ⟨p, ep⟩ := addrType_exists (b := a0) (a := [a1, a2, a3, a4, a5, a6]) rfl h
      have hn : a0.toNat ≠ 0xFF := by
        have : a0.toNat ≤ 1 := h
        omega
      rcases ho with rfl | rfl
      · refine ⟨.leAddDeviceToWhiteList p, trivial, ⟨trivial, trivial⟩, rfl, rfl, ?_⟩
        simp only [cmdParams, ep]
        simp [significant, byteAt_zero, hn]
      · refine ⟨.leRemoveDeviceFromWhiteList p, trivial, ⟨trivial, trivial⟩, rfl, rfl, ?_⟩
        simp only [cmdParams, ep]
        simp [significant, byteAt_zero, hn]
    · have h : a0 = 0xFF := u8_eq_of_toNat h
      subst h
      rcases ho with rfl | rfl
      · exact ⟨.leAddAnonAdvertisingDevicesToWhiteList, trivial, ⟨hv, trivial⟩, rfl, rfl, rfl⟩
      · exact ⟨.leRemoveAnonAdvertisingDevicesFromWhiteList, trivial, ⟨hv, trivial⟩, rfl, rfl, rfl⟩

/-- A command with two bytes of connection handle and nothing else. -/
theorem reached_handle {op : UInt16} (f : ConnectionHandle → Command VS) {ps : List UInt8} (hl : ps.length = 2)
    (hf : ∀ h, (f h).Constructible c ∧ Expressible c (f h) ∧ cmdReject (E := E) (f h) = none ∧
      cmdOpcode (f h) = op ∧ cmdParams (f h) = le16 h.val) : Reached E VS c op ps := by
  match ps, hl with
  | [a, b], _ =>
    obtain ⟨k, ek⟩ := handle_exists a b
    obtain ⟨h1, h2, h3, h4, h5⟩ := hf k
    exact ⟨f k, h1, h2, h3, h4, h5.trans ek⟩

theorem ite_some {p : Prop} [Decidable p] {a n : Nat} {x : Option Nat} (h : (if p then some a else x) = some n) :
    (p ∧ n = a) ∨ (¬ p ∧ x = some n) := by
  split at h
  · rename_i hp
    exact .inl ⟨hp, (Option.some.inj h).symm⟩
  · rename_i hp
    exact .inr ⟨hp, h⟩

/-- Every packet that is acceptable and askable is written by some call. -/
theorem reached_of_askable {op : UInt16} {ps : List UInt8} (h : Acceptable c op ps) (ha : Askable op ps) :
    Reached E VS c op (significant op ps) := by
  obtain ⟨hp, h⟩ := h
  obtain ⟨a1, a2, a3⟩ := ha
  have none0 (cmd : Command VS) (h1 : cmd.Constructible c) (h2 : Expressible c cmd)
      (h3 : cmdReject (E := E) cmd = none) (h4 : cmdOpcode cmd = op) (h5 : cmdParams cmd = [])
      (hl : ps.length = 0) (hs : significant op ps = ps) : Reached E VS c op (significant op ps) :=
    ⟨cmd, h1, h2, h3, h4, by rw [h5, hs, List.length_eq_zero_iff.mp hl]⟩
  unfold paramCount at hp
  rcases ite_some hp with ⟨hm, hl⟩ | ⟨-, hp⟩
  · simp only [List.mem_cons, List.not_mem_nil, or_false] at hm
    rcases hm with rfl | rfl | rfl | rfl | rfl | rfl | rfl | rfl | rfl | rfl | rfl | rfl | rfl | rfl
    · exact none0 .reset trivial ⟨trivial, trivial⟩ rfl rfl rfl hl rfl
    · exact none0 .readLocalVersionInformation trivial ⟨trivial, trivial⟩ rfl rfl rfl hl rfl
    · exact none0 .readLocalSupportedCommands trivial ⟨trivial, trivial⟩ rfl rfl rfl hl rfl
    · exact none0 .readLocalSupportedFeatures trivial ⟨trivial, trivial⟩ rfl rfl rfl hl rfl
    · exact none0 .readBdAddr trivial ⟨trivial, trivial⟩ rfl rfl rfl hl rfl
    · exact none0 .leReadBufferSize trivial ⟨trivial, trivial⟩ rfl rfl rfl hl rfl
    · exact none0 .leReadLocalSupportedFeatures trivial ⟨trivial, trivial⟩ rfl rfl rfl hl rfl
    · exact none0 .leReadAdvertisingChannelTxPower trivial ⟨trivial, trivial⟩ rfl rfl rfl hl rfl
    · exact none0 .leCreateConnectionCancel trivial ⟨trivial, trivial⟩ rfl rfl rfl hl rfl
    · exact none0 .leReadWhiteListSize trivial ⟨trivial, trivial⟩ rfl rfl rfl hl rfl
    · exact none0 .leClearWhiteList trivial ⟨trivial, trivial⟩ rfl rfl rfl hl rfl
    · exact none0 .leRand trivial ⟨trivial, trivial⟩ rfl rfl rfl hl rfl
    · exact none0 .leReadSupportedStates trivial ⟨trivial, trivial⟩ rfl rfl rfl hl rfl
    · exact none0 .leTestEnd trivial ⟨trivial, trivial⟩ rfl rfl rfl hl rfl
  rcases ite_some hp with ⟨hm, hl⟩ | ⟨-, hp⟩
  · simp only [List.mem_cons, List.not_mem_nil, or_false] at hm
    obtain ⟨-, -, -, -, -, -, h6, -, -, -, -, -, -, h13, -⟩ := h
    match ps, hl with
    | [a], _ =>
      rcases hm with rfl | rfl
      · obtain ⟨b, eb⟩ := flag_exists (b := a) (h6 rfl)
        cases hv : c.v50
        · exact ⟨.leSetAdvertiseEnable b, trivial, ⟨hv, trivial⟩, rfl, rfl, by simp only [cmdParams, eb]; rfl⟩
        · exact ⟨.leSetAdvertisingEnable b, trivial, ⟨hv, trivial⟩, rfl, rfl, by simp only [cmdParams, eb]; rfl⟩
      · have : a.toNat ≤ 0x27 := h13 rfl
        exact ⟨.leReceiverTest a, trivial, ⟨trivial, trivial⟩, if_neg (by omega), rfl, rfl⟩
  rcases ite_some hp with ⟨hm, hl⟩ | ⟨-, hp⟩
  · simp only [List.mem_cons, List.not_mem_nil, or_false] at hm
    rcases hm with rfl | rfl | rfl | rfl | rfl | rfl
    · exact reached_handle .readRemoteVersionInformation hl fun _ => ⟨trivial, ⟨trivial, trivial⟩, rfl, rfl, rfl⟩
    · exact reached_handle .readRssi hl fun _ => ⟨trivial, ⟨trivial, trivial⟩, rfl, rfl, rfl⟩
    · obtain ⟨-, -, -, -, -, -, -, -, h8, -⟩ := h
      match ps, hl with
      | [a, b], _ =>
        obtain ⟨h1, h2⟩ := h8 rfl
        obtain ⟨x, ex⟩ := flag_exists (b := a) h1
        obtain ⟨y, ey⟩ := flag_exists (b := b) h2
        exact ⟨.leSetScanEnable x y, trivial, ⟨trivial, trivial⟩, rfl, rfl, by simp only [cmdParams, ex, ey]; rfl⟩
    · exact reached_handle .leReadChannelMap hl fun _ => ⟨trivial, ⟨trivial, trivial⟩, rfl, rfl, rfl⟩
    · exact reached_handle .leReadRemoteUsedFeatures hl fun _ => ⟨trivial, ⟨trivial, trivial⟩, rfl, rfl, rfl⟩
    · exact reached_handle .leLongTermKeyRequestNegativeReply hl fun _ =>
        ⟨trivial, ⟨trivial, trivial⟩, rfl, rfl, rfl⟩
  rcases ite_some hp with ⟨hm, hl⟩ | ⟨-, hp⟩
  · simp only [List.mem_cons, List.not_mem_nil, or_false] at hm
    match ps, hl with
    | [a, b, d], _ =>
      rcases hm with rfl | rfl | rfl
      · obtain ⟨k, ek⟩ := handle_exists a b
        obtain ⟨h0, -⟩ := h
        obtain ⟨r, er⟩ := disconnectReason_exists VS (b := d) (h0 rfl).2
        exact ⟨.disconnect k r, trivial, ⟨trivial, trivial⟩, if_neg (by rw [er]; exact Option.some_ne_none _), rfl,
          by simp only [cmdParams, ek, er]; rfl⟩
      · obtain ⟨k, ek⟩ := handle_exists a b
        obtain ⟨-, -, h2, -⟩ := h
        rcases u8_le_one (b := d) (h2 rfl).2 with rfl | rfl
        · exact ⟨.readTxPowerLevel k .current, trivial, ⟨trivial, trivial⟩, rfl, rfl, by simp only [cmdParams, ek]; rfl⟩
        · exact ⟨.readTxPowerLevel k .maximum, trivial, ⟨trivial, trivial⟩, rfl, rfl, by simp only [cmdParams, ek]; rfl⟩
      · obtain ⟨-, -, -, -, -, -, -, -, -, -, -, -, -, -, h14, -⟩ := h
        obtain ⟨h1, -, h3⟩ := h14 rfl
        have h1 : a.toNat ≤ 0x27 := h1
        have h2 : b.toNat ≤ 0x25 := a3 rfl
        obtain ⟨p, ep⟩ := testPayload_exists (b := d) h3
        refine ⟨.leTransmitterTest a b.toNat p, trivial, ⟨trivial, trivial⟩, ?_, rfl, ?_⟩
        · simp only [cmdReject]
          rw [if_neg (by omega), if_neg (by omega)]
        · simp only [cmdParams, ep, UInt8.ofNat_toNat]
          rfl
  rcases ite_some hp with ⟨hm, hl⟩ | ⟨-, hp⟩
  · subst hm
    obtain ⟨-, -, -, -, -, -, -, -, -, -, -, -, h12, -⟩ := h
    obtain ⟨⟨b, hb, hn⟩, h4⟩ := h12 rfl
    exact ⟨.leSetHostChannelClassification ⟨⟨ps, hl⟩⟩, trivial, ⟨trivial, h4⟩, if_neg fun h => hn (h b hb), rfl, rfl⟩
  rcases ite_some hp with ⟨hm, hl⟩ | ⟨-, hp⟩
  · subst hm
    obtain ⟨-, -, -, h3, -⟩ := h
    obtain ⟨hl', hv⟩ := h3 rfl
    exact ⟨.leSetRandomAddress ⟨⟨ps, hl⟩⟩, trivial, ⟨trivial, trivial⟩, if_pos hv, rfl, rfl⟩
  rcases ite_some hp with ⟨hm, hl⟩ | ⟨-, hp⟩
  · simp only [List.mem_cons, List.not_mem_nil, or_false] at hm
    rcases hm with rfl | hm
    · exact reached_scan hl h
    · obtain ⟨-, -, -, -, -, -, -, -, -, -, h10, -⟩ := h
      exact reached_white_list hl hm (h10 hm)
  rcases ite_some hp with ⟨hm, hl⟩ | ⟨-, hp⟩
  · simp only [List.mem_cons, List.not_mem_nil, or_false] at hm
    obtain ⟨-, -, -, -, -, -, -, -, -, -, -, -, -, -, -, h15, h16⟩ := h
    rcases hm with rfl | rfl
    · obtain ⟨m, em, hm⟩ := mask_exists hl (h15 rfl)
      exact ⟨.setEventMask m, trivial, ⟨trivial, fun k hk => (declared_eventFlags c k).mpr (hm k hk)⟩, rfl, rfl, em⟩
    · obtain ⟨m, em, hm⟩ := mask_exists hl (h16 rfl)
      exact ⟨.leSetEventMask m, trivial, ⟨trivial, fun k hk => (declared_leEventFlags c k).mpr (hm k hk)⟩, rfl, rfl, em⟩
  rcases ite_some hp with ⟨hm, hl⟩ | ⟨-, hp⟩
  · subst hm
    exact reached_update hl h (a2 rfl)
  rcases ite_some hp with ⟨hm, hl⟩ | ⟨-, hp⟩
  · subst hm
    exact reached_advertising hl h
  rcases ite_some hp with ⟨hm, hl⟩ | ⟨-, hp⟩
  · subst hm
    match ps with
    | a :: b :: key =>
      obtain ⟨k, ek⟩ := handle_exists a b
      have hk : key.length = 16 := by simpa using hl
      exact ⟨.leLongTermKeyRequestReply k ⟨key, hk⟩, trivial, ⟨trivial, trivial⟩, rfl, rfl,
        by simp only [cmdParams, ek]; rfl⟩
    | [_] => cases hl
    | [] => cases hl
  rcases ite_some hp with ⟨hm, hl⟩ | ⟨-, hp⟩
  · subst hm
    exact reached_create hl h (a1 rfl)
  rcases ite_some hp with ⟨hm, hl⟩ | ⟨-, hp⟩
  · subst hm
    obtain ⟨r0, r1, e1, e2⟩ : ∃ a b, ps.take 2 = [a, b] ∧ ps = a :: b :: ps.drop 2 := by
      match ps with
      | a :: b :: bs => exact ⟨a, b, rfl, rfl⟩
      | [_] => cases hl
      | [] => cases hl
    obtain ⟨k, ek⟩ := handle_exists r0 r1
    have hr : ((ps.drop 2).take 8).length = 8 := by simp [hl]
    have hd : ((ps.drop 10).take 2).length = 2 := by simp [hl]
    have hk : (ps.drop 12).length = 16 := by simp [hl]
    refine ⟨.leStartEncryption ⟨k, UInt64.ofNat (leNat ((ps.drop 2).take 8)), UInt16.ofNat (leNat ((ps.drop 10).take 2)),
      ⟨ps.drop 12, hk⟩⟩, trivial, ⟨trivial, trivial⟩, rfl, rfl, ?_⟩
    simp only [cmdParams, ek, le64_ofNat_leNat _ hr, le16_ofNat_leNat _ hd, ← e1]
    have j1 : (ps.drop 10).take 2 ++ ps.drop 12 = ps.drop 10 := by
      have := List.take_append_drop 2 (ps.drop 10)
      rwa [List.drop_drop] at this
    have j2 : (ps.drop 2).take 8 ++ ps.drop 10 = ps.drop 2 := by
      have := List.take_append_drop 8 (ps.drop 2)
      rwa [List.drop_drop] at this
    rw [List.append_assoc, List.append_assoc, j1, j2, List.take_append_drop]
    rfl
  rcases ite_some hp with ⟨hm, hl⟩ | ⟨-, hp⟩
  · simp only [List.mem_cons, List.not_mem_nil, or_false] at hm
    rcases hm with rfl | rfl | rfl
    · obtain ⟨-, -, -, -, -, h5, -⟩ := h
      exact reached_data hl (.inl rfl) (h5 (.inl rfl))
    · obtain ⟨-, -, -, -, -, h5, -⟩ := h
      exact reached_data hl (.inr rfl) (h5 (.inr rfl))
    · have h1 : (ps.take 16).length = 16 := by simp [hl]
      have h2 : (ps.drop 16).length = 16 := by simp [hl]
      refine ⟨.leEncrypt ⟨⟨ps.take 16, h1⟩, ⟨ps.drop 16, h2⟩⟩, trivial, ⟨trivial, trivial⟩, rfl, rfl, ?_⟩
      exact List.take_append_drop 16 ps
  · cases hp

/-! ## The converse -/

theorem paramCount_of_white_list {ps : List UInt8} {op : UInt16} (h : Acceptable c op ps)
    (ho : op = 0x2011 ∨ op = 0x2012) : ps.length = 7 := by
  obtain ⟨h, -⟩ := h
  rcases ho with rfl | rfl <;> exact (Option.some.inj h).symm

/-- What is left of a packet asks for the same. -/
theorem sameRequest_significant {op : UInt16} {ps : List UInt8} (h : Acceptable c op ps) :
    SameRequest op ps (significant op ps) := by
  unfold SameRequest
  by_cases h1 : op = 0x2006 ∧ byteAt ps 4 = 1
  · have hl : ps.length = 15 := by
      obtain ⟨h, -⟩ := h
      rw [h1.1] at h
      exact (Option.some.inj h).symm
    have e : significant op ps = zeroes 4 ++ ps.drop 4 := by rw [significant, if_pos h1]
    have hb : byteAt (zeroes 4 ++ ps.drop 4) 4 = 1 := by
      have := byteAt_append (zeroes 4) (ps.drop 4) 0
      rw [length_zeroes] at this
      rw [this, ← h1.2]
      simp [byteAt, List.getD_eq_getElem?_getD]
    rw [e, significant, if_pos ⟨h1.1, hb⟩]
    simp [hl]
  by_cases h2 : op = 0x2008 ∨ op = 0x2009
  · have hl : ps.length = 32 := by
      obtain ⟨h, -⟩ := h
      rcases h2 with rfl | rfl <;> exact (Option.some.inj h).symm
    obtain ⟨-, -, -, -, -, -, hr, -⟩ := h
    have hr := hr h2
    have e : significant op ps = ps.take (1 + byteAt ps 0) ++ zeroes (31 - byteAt ps 0) := by
      rw [significant, if_neg h1, if_pos h2]
    have hb : byteAt (ps.take (1 + byteAt ps 0) ++ zeroes (31 - byteAt ps 0)) 0 = byteAt ps 0 := by
      match ps with
      | [] => cases hl
      | b :: bs => rw [Nat.add_comm, List.take_succ_cons, List.cons_append, byteAt_zero, byteAt_zero]
    have hn : ¬ (op = 0x2006 ∧ byteAt (significant op ps) 4 = 1) := fun h => by
      rcases h2 with rfl | rfl <;> exact absurd h.1 (by decide)
    refine ⟨by rw [e]; simp [hl]; omega, ?_⟩
    have e' : significant op (significant op ps) = (significant op ps).take (1 + byteAt (significant op ps) 0) ++
        zeroes (31 - byteAt (significant op ps) 0) := by
      rw [significant.eq_1 op (significant op ps), if_neg hn, if_pos h2]
    rw [e', e, hb, List.take_append_of_le_length (by simp [hl]; omega), List.take_take, Nat.min_self]
  by_cases h3 : op = 0x200D ∧ byteAt ps 4 = 1
  · have hl : ps.length = 25 := by
      obtain ⟨h, -⟩ := h
      rw [h3.1] at h
      exact (Option.some.inj h).symm
    obtain ⟨rfl, h3⟩ := h3
    match ps, hl with
    | [a0, a1, a2, a3, a4, a5, a6, a7, a8, a9, a10, a11, a12, b0, b1, b2, b3, b4, b5, b6, b7, b8, b9, b10, b11], _ =>
      cases (u8_eq_of_toNat h3 : a4 = 1)
      exact ⟨rfl, rfl⟩
  by_cases h4 : (op = 0x2011 ∨ op = 0x2012) ∧ byteAt ps 0 = 0xFF
  · have hl := paramCount_of_white_list h h4.1
    match ps, hl with
    | [a0, a1, a2, a3, a4, a5, a6], _ =>
      cases (u8_eq_of_toNat h4.2 : a0 = 0xFF)
      rcases h4.1 with rfl | rfl <;> exact ⟨rfl, rfl⟩
  · have e : significant op ps = ps := by
      rw [significant, if_neg h1, if_neg h2, if_neg h3, if_neg h4]
    rw [e, e]
    exact ⟨rfl, rfl⟩

theorem roomAt_significant (ps : List UInt8) (hl : ps.length = 25) :
    RoomAt (significant 0x200D ps) 13 ↔ RoomAt ps 13 := by
  have e : (significant 0x200D ps).drop 12 = ps.drop 12 := by
    by_cases h : byteAt ps 4 = 1
    · rw [significant, if_neg (fun h => absurd h.1 (by decide)), if_neg (by decide), if_pos ⟨rfl, h⟩]
      simp [List.drop_append, hl]
    · rw [significant, if_neg (fun h => absurd h.1 (by decide)), if_neg (by decide), if_neg (fun h' => h h'.2),
        if_neg (fun h => absurd h.1 (by decide))]
  have h1 := roomAt_drop (significant 0x200D ps) 12 1
  have h2 := roomAt_drop ps 12 1
  rw [e] at h1
  exact h1.symm.trans h2

theorem cmd_of_create {cmd : Command VS} (h : cmdOpcode cmd = 0x200D) : ∃ p, cmd = .leCreateConnection p := by
  cases cmd <;> first | exact ⟨_, rfl⟩ | simp [cmdOpcode] at h

theorem cmd_of_update {cmd : Command VS} (h : cmdOpcode cmd = 0x2013) : ∃ p, cmd = .leConnectionUpdate p := by
  cases cmd <;> first | exact ⟨_, rfl⟩ | simp [cmdOpcode] at h

theorem cmd_of_test {cmd : Command VS} (h : cmdOpcode cmd = 0x201E) : ∃ ch n p, cmd = .leTransmitterTest ch n p := by
  cases cmd <;> first | exact ⟨_, _, _, rfl⟩ | simp [cmdOpcode] at h

/-- What a call writes is askable, and so is what asks for the same. -/
theorem askable_of_reached {op : UInt16} {ps qs : List UInt8} (h : Reached E VS c op qs) (hs : SameRequest op ps qs) :
    Askable op ps := by
  obtain ⟨cmd, hc, -, ha, rfl, rfl⟩ := h
  obtain ⟨hl, hs⟩ := hs
  refine ⟨fun ho => ?_, fun ho => ?_, fun ho => ?_⟩
  · obtain ⟨p, rfl⟩ := cmd_of_create ho
    have hl' : (cmdParams (.leCreateConnection (VS := VS) p)).length = 25 := by
      cases hf : p.initiatorFilterPolicy <;> cases hp : p.peerAddress <;> simp [cmdParams, hf, hp, peerBytes]
    rw [hl'] at hl
    rw [ho] at hs
    rw [← roomAt_significant ps hl, hs, roomAt_significant _ hl']
    obtain ⟨pre, hp, e⟩ : ∃ pre : List UInt8, pre.length = 13 ∧ cmdParams (.leCreateConnection (VS := VS) p) =
        pre ++ (connIntervalBytes p.connInterval ++ connLengthBytes p.expectedConnectionLength) := by
      simp only [cmdParams]
      cases p.initiatorFilterPolicy
      · refine ⟨scanWindowBytes p.scanWindow ++ 0 :: peerBytes p.peerAddress ++ [ownAddressCode p.ownAddressType], ?_, ?_⟩
        · cases hp : p.peerAddress <;> simp [peerBytes]
        · simp
      · refine ⟨scanWindowBytes p.scanWindow ++ 1 :: zeroes 7 ++ [ownAddressCode p.ownAddressType], ?_, ?_⟩
        · simp
        · simp
    rw [e, roomAt_append hp]
    exact room_of_built hc.2.1 _
  · obtain ⟨p, rfl⟩ := cmd_of_update ho
    rw [ho] at hs
    have hs : ps = cmdParams (.leConnectionUpdate (VS := VS) p) := hs
    have e : cmdParams (.leConnectionUpdate (VS := VS) p) = le16 p.connHandle.val ++
        (connIntervalBytes p.connInterval ++ connLengthBytes p.expectedConnectionLength) := by
      simp [cmdParams]
    rw [hs, e, roomAt_append (by simp)]
    exact room_of_built hc.1 _
  · obtain ⟨ch, n, p, rfl⟩ := cmd_of_test ho
    rw [ho] at hs
    have hs : ps = [ch, UInt8.ofNat n, testPayloadCode p] := hs
    rw [hs]
    simp only [cmdReject] at ha
    split at ha
    · cases ha
    · split at ha
      · cases ha
      · show (UInt8.ofNat n).toNat ≤ 0x25
        rw [UInt8.toNat_ofNat']
        omega

end Bt
