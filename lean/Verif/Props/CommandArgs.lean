import Verif.Lemmas.Canonical
import Verif.Props.Commands

/-! # C45-C47, C53: what the parameters of particular commands look like -/

namespace Bt

open Spec

variable {σ E VS : Type} {c : Cfg}

/-! ## C45: advertising and scan response data -/

/-- **C45.** Data of at most 31 bytes is sent as a block of 32 bytes (length, data, zeros) under the right
opcode; longer data is rejected with its length, without touching the controller. -/
theorem C45_outbound_data (l : Link) (k : Controller σ E) (data : List UInt8) (s : σ) :
    let block := UInt8.ofNat data.length :: data ++ zeroes (31 - data.length)
    let send := fun op : UInt16 =>
      if data.length ≤ 31 then
        ((k.write (headerBytes l op 32) block s).1.mapErr commError, (k.write (headerBytes l op 32) block s).2)
      else (.err (.other (.advertisingDataTooLong data.length)), s)
    Hci.leSetAdvertisingData (VS := VS) (linkHeader l) k data s = send 0x2008 ∧
    Hci.leSetScanResponseData (VS := VS) (linkHeader l) k data s = send 0x2009 := by
  intro block send
  have key : ∀ op : Opcode, setOutboundData (VS := VS) (linkHeader l) k op data s = send op.val := by
    intro op
    rw [setOutboundData_eq _ k (headerBytes l) (writeCommand_eq l k)]
    simp only [send]
    by_cases h : data.length ≤ 31
    · have hl : block.length = 32 := by simp [block]; omega
      rw [if_neg (by omega), if_pos h, ← hl]
      rfl
    · rw [if_pos (by omega), if_neg h]
      rfl
  exact ⟨key _, key _⟩

example : (Hci.leSetAdvertisingData (VS := Empty) (linkHeader .uart) logController [2, 1, 6] []).2 =
      [([0x01, 0x08, 0x20, 32], 3 :: 2 :: 1 :: 6 :: zeroes 28)] ∧
    (Hci.leSetAdvertisingData (VS := Empty) (linkHeader .uart) logController (zeroes 32) []) =
      (.err (.other (.advertisingDataTooLong 32)), []) := ⟨rfl, rfl⟩

/-- **C44.** `le_set_random_address` writes the six bytes of a valid random address, and does nothing but return the
error for any other address. -/
theorem C44_command (l : Link) (k : Controller σ E) (a : BdAddr) (s : σ) :
    Hci.leSetRandomAddress (VS := VS) (linkHeader l) k a s =
      if ValidRandomAddress a then
        ((k.write (headerBytes l 0x2005 6) a.val.val s).1.mapErr commError,
          (k.write (headerBytes l 0x2005 6) a.val.val s).2)
      else (.err (.other (.badRandomAddress a)), s) := by
  have key := exec_eq ⟨false, false⟩ l k (fun _ : VS => 0) (.leSetRandomAddress a) trivial
  have h6 : a.val.val.length = 6 := a.val.len
  have hs := congrFun key s
  rw [show Command.exec (VS := VS) (linkHeader l) k (fun _ => 0) (.leSetRandomAddress a) =
    Hci.leSetRandomAddress (linkHeader l) k a from rfl] at hs
  rw [hs]
  simp only [cmdReject]
  split
  · rw [show headerBytes l 0x2005 6 = headerBytes l 0x2005 a.val.val.length by rw [h6]]; rfl
  · rfl

/-- A static address, and one whose bits are all set. -/
example : ValidRandomAddress ⟨⟨[1, 2, 3, 4, 5, 0xC0], rfl⟩⟩ ∧
    ¬ ValidRandomAddress ⟨⟨[0xFF, 0xFF, 0xFF, 0xFF, 0xFF, 0xFF], rfl⟩⟩ := by decide

theorem outboundData_recover (data : List UInt8) (h : data.length ≤ 31) :
    ∃ n rest, outboundData data = n :: rest ∧ n.toNat = data.length ∧ rest.length = 31 ∧
      rest.take n.toNat = data ∧ ∀ b ∈ rest.drop n.toNat, b = 0 := by
  refine ⟨UInt8.ofNat data.length, data ++ zeroes (31 - data.length), rfl, ?_, ?_, ?_, ?_⟩
  · rw [UInt8.toNat_ofNat']; omega
  · simp; omega
  · rw [UInt8.toNat_ofNat', Nat.mod_eq_of_lt (by omega)]; simp
  · rw [UInt8.toNat_ofNat', Nat.mod_eq_of_lt (by omega)]; simp [zeroes]

/-- **C45.** The receiver recovers the data: the first byte of what either method writes says how many of the
following bytes to take, and the rest is zero. -/
theorem C45_recover (l : Link) (k : Controller σ E) (data : List UInt8) (h : data.length ≤ 31) (s : σ) :
    ∃ n rest, n.toNat = data.length ∧ rest.length = 31 ∧ rest.take n.toNat = data ∧
      (∀ b ∈ rest.drop n.toNat, b = 0) ∧
      (∃ header, (Hci.leSetAdvertisingData (VS := VS) (linkHeader l) (recording k) data (s, [])).2.2 =
        [.write header (n :: rest)]) ∧
      (∃ header, (Hci.leSetScanResponseData (VS := VS) (linkHeader l) (recording k) data (s, [])).2.2 =
        [.write header (n :: rest)]) := by
  obtain ⟨n, rest, h1, h2, h3, h4, h5⟩ := outboundData_recover data h
  obtain ⟨e1, e2⟩ := C45_outbound_data (VS := VS) l (recording k) data (s, [])
  refine ⟨n, rest, h2, h3, h4, h5, ⟨headerBytes l 0x2008 32, ?_⟩, ⟨headerBytes l 0x2009 32, ?_⟩⟩
  · simp only [e1, if_pos h, ← h1]; rfl
  · simp only [e2, if_pos h, ← h1]; rfl

example : outboundData [2, 1, 6] = 3 :: 2 :: 1 :: 6 :: zeroes 28 := rfl

/-! ## C46: Create Connection -/

/-- **C46.** `le_create_connection` writes 25 bytes; with the white list the peer address type and address are
zero, otherwise they are the peer's. -/
theorem C46_block (l : Link) (k : Controller σ E) (s : σ) (p : ConnectionParameters)
    (hc : (Command.leCreateConnection (VS := VS) p).Constructible c) :
    ∃ block, (Hci.leCreateConnection (linkHeader l) (recording k) p (s, [])).2.2 =
        [.write (headerBytes l 0x200D 25) block] ∧ block.length = 25 ∧
      block.take 4 = le 2 (p.scanWindow.interval.ns / (625 * us)) ++ le 2 (p.scanWindow.window.ns / (625 * us)) ∧
      (p.initiatorFilterPolicy = .whiteList → (block.drop 4).take 8 = 1 :: zeroes 7) ∧
      (p.initiatorFilterPolicy = .useAddress → (block.drop 4).take 8 = 0 :: peerBytes p.peerAddress) ∧
      block[12]? = some (ownAddressCode p.ownAddressType) ∧
      block.drop 13 = connIntervalBytes p.connInterval ++ connLengthBytes p.expectedConnectionLength := by
  have hw : (Hci.leCreateConnection (linkHeader l) (recording k) p (s, [])).2.2 =
      [.write (headerBytes l 0x200D 25) (cmdParams (.leCreateConnection (VS := VS) p))] := by
    have h1 := C39_trace (VS := VS) c l k (fun _ => 0) (.leCreateConnection p) hc rfl s []
    have h2 : (cmdParams (.leCreateConnection (VS := VS) p)).length = 25 := by
      simp only [cmdParams]
      cases p.initiatorFilterPolicy <;> simp
    rw [h2] at h1
    exact h1
  refine ⟨_, hw, ?_⟩
  simp only [cmdParams]
  have hl := length_scanWindowBytes p.scanWindow
  have h4 : scanWindowBytes p.scanWindow =
      le 2 (p.scanWindow.interval.ns / (625 * us)) ++ le 2 (p.scanWindow.window.ns / (625 * us)) := rfl
  rw [← h4]
  cases p.initiatorFilterPolicy <;>
    simp [List.take_append, List.drop_append, hl, List.getElem?_append,
      List.take_of_length_le, List.drop_of_length_le]

example : (Command.leCreateConnection (VS := Empty)
    ⟨⟨Duration.millis 50, Duration.millis 50⟩, .useAddress, .randomDeviceAddress ⟨⟨[1, 2, 3, 4, 5, 6], rfl⟩⟩,
      .pub, ⟨Duration.millis 10, Duration.millis 20, 3, Duration.secs 2⟩,
      ⟨Duration.millis 1, Duration.millis 2⟩⟩).Constructible ⟨false, false⟩ :=
  ⟨⟨Duration.millis 50, Duration.millis 50, by decide +kernel⟩,
   ⟨⟨some (Duration.millis 10, Duration.millis 20), some 3, some (Duration.secs 2)⟩, by decide +kernel⟩,
   ⟨Duration.millis 1, Duration.millis 2, by decide +kernel⟩⟩

theorem block_determined (p q : ConnectionParameters)
    (hp : (Command.leCreateConnection (VS := VS) p).Constructible c)
    (hq : (Command.leCreateConnection (VS := VS) q).Constructible c)
    (h : cmdParams (.leCreateConnection (VS := VS) p) = cmdParams (.leCreateConnection (VS := VS) q)) :
    p.initiatorFilterPolicy = q.initiatorFilterPolicy ∧
    (p.initiatorFilterPolicy = .useAddress → p.peerAddress = q.peerAddress) ∧
    p.ownAddressType = q.ownAddressType ∧ p.connInterval.connLatency = q.connInterval.connLatency ∧
    floorWindow p.scanWindow = floorWindow q.scanWindow ∧ floorConn p.connInterval = floorConn q.connInterval ∧
    floorLength p.expectedConnectionLength = floorLength q.expectedConnectionLength := by
  simp only [cmdParams] at h
  obtain ⟨h, h5⟩ := List.append_inj' h (by simp)
  obtain ⟨h, h4⟩ := List.append_inj' h (by simp)
  obtain ⟨h, h3⟩ := List.append_inj' h (by simp)
  obtain ⟨h1, h2⟩ := List.append_inj h (by simp)
  have ho : p.ownAddressType = q.ownAddressType := by
    revert h3
    cases p.ownAddressType <;> cases q.ownAddressType <;> simp [ownAddressCode]
  have hpeer : ∀ a b : PeerAddrType, peerBytes a = peerBytes b → a = b := by
    intro a b hab
    have ha : ∀ x y : BdAddr, x.val.val = y.val.val → x = y := by
      intro x y h; cases x; cases y; simp only [BdAddr.mk.injEq]; exact Arr.ext' h
    revert hab
    cases a <;> cases b <;> simp [peerBytes] <;> exact ha _ _
  have hconn := floorConn_of_bytes hp.2.1 hq.2.1 h4
  refine ⟨?_, ?_, ho, ?_, floorWindow_of_bytes hp.1 hq.1 h1, hconn,
    floorLength_of_bytes hp.2.2 hq.2.2 h5⟩
  · revert h2
    cases p.initiatorFilterPolicy <;> cases q.initiatorFilterPolicy <;> simp
  · intro hu
    rw [hu] at h2
    revert h2
    cases q.initiatorFilterPolicy
    · simp only [List.cons.injEq, true_and]
      exact hpeer _ _
    · simp
  · exact (ConnectionInterval.mk.inj hconn).2.2.1

/-- **C46.** What `le_create_connection` writes determines its parameters: the peer address unless the white
list is used, and everything else up to the rounding of durations. -/
theorem C46_determined (l : Link) (k : Controller σ E) (s t : σ) (p q : ConnectionParameters)
    (hp : (Command.leCreateConnection (VS := VS) p).Constructible c)
    (hq : (Command.leCreateConnection (VS := VS) q).Constructible c)
    (h : (Hci.leCreateConnection (linkHeader l) (recording k) p (s, [])).2.2 =
      (Hci.leCreateConnection (linkHeader l) (recording k) q (t, [])).2.2) :
    p.initiatorFilterPolicy = q.initiatorFilterPolicy ∧
    (p.initiatorFilterPolicy = .useAddress → p.peerAddress = q.peerAddress) ∧
    p.ownAddressType = q.ownAddressType ∧ p.connInterval.connLatency = q.connInterval.connLatency ∧
    floorWindow p.scanWindow = floorWindow q.scanWindow ∧ floorConn p.connInterval = floorConn q.connInterval ∧
    floorLength p.expectedConnectionLength = floorLength q.expectedConnectionLength := by
  refine block_determined (VS := VS) p q hp hq ?_
  have h1 := C39_trace (VS := VS) c l k (fun _ => 0) (.leCreateConnection p) hp rfl s []
  have h2 := C39_trace (VS := VS) c l k (fun _ => 0) (.leCreateConnection q) hq rfl t []
  have h3 := h1.symm.trans (Eq.trans h h2)
  simp only [List.nil_append, List.cons.injEq, CtlOp.write.injEq, and_true] at h3
  exact h3.2

/-- With the white list, the peer address is not written. -/
example : let p := fun a => (⟨⟨Duration.millis 50, Duration.millis 50⟩, .whiteList, .publicDeviceAddress a, .pub,
      ⟨Duration.millis 10, Duration.millis 20, 3, Duration.secs 2⟩, ⟨Duration.millis 1, Duration.millis 2⟩⟩ :
      ConnectionParameters)
    (Hci.leCreateConnection (linkHeader .uart) (recording logController) (p ⟨⟨[1, 2, 3, 4, 5, 6], rfl⟩⟩)
      ([], [])).2.2 =
    (Hci.leCreateConnection (linkHeader .uart) (recording logController) (p ⟨Arr.zero 6⟩) ([], [])).2.2 := rfl

example : (Command.leCreateConnection (VS := Empty)
    ⟨⟨Duration.millis 50, Duration.millis 50⟩, .useAddress, .randomDeviceAddress ⟨⟨[1, 2, 3, 4, 5, 6], rfl⟩⟩,
      .pub, ⟨Duration.millis 10, Duration.millis 20, 3, Duration.secs 2⟩,
      ⟨Duration.millis 1, Duration.millis 2⟩⟩).Constructible ⟨false, false⟩ :=
  ⟨⟨Duration.millis 50, Duration.millis 50, by decide +kernel⟩,
   ⟨⟨some (Duration.millis 10, Duration.millis 20), some 3, some (Duration.secs 2)⟩, by decide +kernel⟩,
   ⟨Duration.millis 1, Duration.millis 2, by decide +kernel⟩⟩

/-! ## C47: distinct arguments, distinct packets -/

theorem addrTypeBytes_inj {a b : BdAddrType} (h : addrTypeBytes a = addrTypeBytes b) : a = b := by
  have ha : ∀ x y : BdAddr, x.val.val = y.val.val → x = y := by
    intro x y h; cases x; cases y; simp only [BdAddr.mk.injEq]; exact Arr.ext' h
  revert h
  cases a <;> cases b <;> simp [addrTypeBytes] <;> exact ha _ _

theorem outboundData_inj {a b : List UInt8} (ha : a.length ≤ 31) (hb : b.length ≤ 31)
    (h : outboundData a = outboundData b) : a = b := by
  obtain ⟨n, r, h1, h2, h3, h4, -⟩ := outboundData_recover a ha
  obtain ⟨n', r', h1', h2', h3', h4', -⟩ := outboundData_recover b hb
  rw [h1, h1'] at h
  cases h
  rw [← h4, ← h4']

theorem flagByte_inj {a b : Bool} (h : flagByte a = flagByte b) : a = b := by
  revert h
  cases a <;> cases b <;> simp [flagByte]

theorem handle_inj {a b : ConnectionHandle} (h : le16 a.val = le16 b.val) : a = b := by
  cases a; cases b; cases le16_inj h; rfl

theorem disconnectCode_inj {a b : Status VS} (ha : disconnectCode a ≠ none)
    (h : disconnectCode a = disconnectCode b) : a = b := by
  cases a <;> first | exact absurd rfl ha | (cases b <;> first | rfl | simp [disconnectCode] at h)

theorem packet_eq_iff (c : Cfg) (a b : Command VS) (ca : a.Constructible c) (cb : b.Constructible c)
    (ra : cmdReject (E := E) a = none) (rb : cmdReject (E := E) b = none) :
    cmdOpcode a = cmdOpcode b ∧ cmdParams a = cmdParams b ↔ canonical a = canonical b := by
  constructor
  case mpr =>
    intro h
    rw [← (canonical_wire a).1, ← (canonical_wire a).2, h]
    exact ⟨(canonical_wire b).1, (canonical_wire b).2⟩
  rintro ⟨ho, h⟩
  cases a <;> cases b <;> try (exfalso; revert ho; simp [cmdOpcode]; done)
  case disconnect.disconnect h1 r1 h2 r2 =>
    simp only [cmdReject, ite_eq_right_iff, reduceCtorEq, imp_false] at ra rb
    obtain ⟨e1, e2⟩ := List.append_inj h (by simp)
    simp only [List.cons.injEq, and_true] at e2
    have : disconnectCode r1 = disconnectCode r2 := by
      cases h1 : disconnectCode r1 with
      | none => exact absurd h1 ra
      | some x =>
        cases h2 : disconnectCode r2 with
        | none => exact absurd h2 rb
        | some y => rw [h1, h2] at e2; simpa using e2
    rw [handle_inj e1, disconnectCode_inj ra this]
  case readRemoteVersionInformation.readRemoteVersionInformation => rw [handle_inj h]
  case setEventMask.setEventMask => rw [le64_inj h]
  case reset.reset => rfl
  case readTxPowerLevel.readTxPowerLevel h1 t1 h2 t2 =>
    obtain ⟨e1, e2⟩ := List.append_inj h (by simp)
    rw [handle_inj e1]
    revert e2
    cases t1 <;> cases t2 <;> simp
  case readLocalVersionInformation.readLocalVersionInformation => rfl
  case readLocalSupportedCommands.readLocalSupportedCommands => rfl
  case readLocalSupportedFeatures.readLocalSupportedFeatures => rfl
  case readBdAddr.readBdAddr => rfl
  case readRssi.readRssi => rw [handle_inj h]
  case leSetEventMask.leSetEventMask => rw [le64_inj h]
  case leReadBufferSize.leReadBufferSize => rfl
  case leReadLocalSupportedFeatures.leReadLocalSupportedFeatures => rfl
  case leSetRandomAddress.leSetRandomAddress x y =>
    have ha : ∀ x y : BdAddr, x.val.val = y.val.val → x = y := by
      intro x y h; cases x; cases y; simp only [BdAddr.mk.injEq]; exact Arr.ext' h
    rw [ha _ _ h]
  case leSetAdvertisingParameters.leSetAdvertisingParameters p q =>
    simp only [cmdParams] at h
    obtain ⟨h, h4⟩ := List.append_inj' h (by simp)
    obtain ⟨h, h3⟩ := List.append_inj h (by simp)
    obtain ⟨h1, h2⟩ := List.append_inj h (by simp)
    simp only [List.cons.injEq, and_true] at h2 h4
    have e2 : p.ownAddressType = q.ownAddressType := by
      revert h2
      cases p.ownAddressType <;> cases q.ownAddressType <;> simp [ownAddressCode]
    have e4 : p.advertisingFilterPolicy = q.advertisingFilterPolicy := by
      have := h4.2
      revert this
      cases p.advertisingFilterPolicy <;> cases q.advertisingFilterPolicy <;> simp [advFilterCode]
    simp only [canonical, floorAdv_of_bytes ca cb h1, e2, addrTypeBytes_inj h3, h4.1, e4]
  case leReadAdvertisingChannelTxPower.leReadAdvertisingChannelTxPower => rfl
  case leSetAdvertisingData.leSetAdvertisingData x y =>
    simp only [cmdReject, ite_eq_right_iff, reduceCtorEq, imp_false] at ra rb
    rw [outboundData_inj (by omega) (by omega) h]
  case leSetScanResponseData.leSetScanResponseData x y =>
    simp only [cmdReject, ite_eq_right_iff, reduceCtorEq, imp_false] at ra rb
    rw [outboundData_inj (by omega) (by omega) h]
  case leSetAdvertiseEnable.leSetAdvertiseEnable x y =>
    rw [show x = y from flagByte_inj (by simpa [cmdParams] using h)]
  case leSetAdvertiseEnable.leSetAdvertisingEnable x y =>
    rw [show x = y from flagByte_inj (by simpa [cmdParams] using h)]; rfl
  case leSetAdvertisingEnable.leSetAdvertiseEnable x y =>
    rw [show x = y from flagByte_inj (by simpa [cmdParams] using h)]; rfl
  case leSetAdvertisingEnable.leSetAdvertisingEnable x y =>
    rw [show x = y from flagByte_inj (by simpa [cmdParams] using h)]
  case leSetScanParameters.leSetScanParameters p q =>
    simp only [cmdParams] at h
    obtain ⟨h, h4⟩ := List.append_inj' h (by simp)
    obtain ⟨h1, h2⟩ := List.append_inj h (by simp)
    simp only [List.cons.injEq, and_true] at h1 h4
    have e1 : p.scanType = q.scanType := by
      revert h1
      cases p.scanType <;> cases q.scanType <;> simp [scanTypeCode]
    have e2 : p.ownAddressType = q.ownAddressType := by
      have := h4.1
      revert this
      cases p.ownAddressType <;> cases q.ownAddressType <;> simp [ownAddressCode]
    have e4 : p.filterPolicy = q.filterPolicy := by
      have := h4.2
      revert this
      cases p.filterPolicy <;> cases q.filterPolicy <;> simp [scanFilterCode]
    simp only [canonical, floorWindow_of_bytes ca cb h2, e2, e1, e4]
  case leSetScanEnable.leSetScanEnable x1 x2 y1 y2 =>
    simp only [cmdParams, List.cons.injEq, and_true] at h
    rw [flagByte_inj h.1, flagByte_inj h.2]
  case leCreateConnection.leCreateConnection p q =>
    obtain ⟨e1, e2, e3, -, e5, e6, e7⟩ := block_determined p q ca cb h
    simp only [canonical, ← e1, e3, e5, e6, e7]
    cases hf : p.initiatorFilterPolicy with
    | whiteList => simp
    | useAddress => simp [e2 hf]
  case leCreateConnectionCancel.leCreateConnectionCancel => rfl
  case leReadWhiteListSize.leReadWhiteListSize => rfl
  case leClearWhiteList.leClearWhiteList => rfl
  case leAddDeviceToWhiteList.leAddDeviceToWhiteList => rw [addrTypeBytes_inj h]
  case leAddDeviceToWhiteList.leAddAnonAdvertisingDevicesToWhiteList x =>
    cases x <;> simp [cmdParams, addrTypeBytes] at h
  case leAddAnonAdvertisingDevicesToWhiteList.leAddDeviceToWhiteList x =>
    cases x <;> simp [cmdParams, addrTypeBytes] at h
  case leAddAnonAdvertisingDevicesToWhiteList.leAddAnonAdvertisingDevicesToWhiteList => rfl
  case leRemoveDeviceFromWhiteList.leRemoveDeviceFromWhiteList => rw [addrTypeBytes_inj h]
  case leRemoveDeviceFromWhiteList.leRemoveAnonAdvertisingDevicesFromWhiteList x =>
    cases x <;> simp [cmdParams, addrTypeBytes] at h
  case leRemoveAnonAdvertisingDevicesFromWhiteList.leRemoveDeviceFromWhiteList x =>
    cases x <;> simp [cmdParams, addrTypeBytes] at h
  case leRemoveAnonAdvertisingDevicesFromWhiteList.leRemoveAnonAdvertisingDevicesFromWhiteList => rfl
  case leConnectionUpdate.leConnectionUpdate p q =>
    simp only [cmdParams] at h
    obtain ⟨h, h3⟩ := List.append_inj h (by simp)
    obtain ⟨h1, h2⟩ := List.append_inj h (by simp)
    simp only [canonical, handle_inj h1, floorConn_of_bytes ca.1 cb.1 h2, floorLength_of_bytes ca.2 cb.2 h3]
  case leSetHostChannelClassification.leSetHostChannelClassification x y =>
    obtain ⟨x⟩ := x
    obtain ⟨y⟩ := y
    rw [show x = y from Arr.ext' h]
  case leReadChannelMap.leReadChannelMap => rw [handle_inj h]
  case leReadRemoteUsedFeatures.leReadRemoteUsedFeatures => rw [handle_inj h]
  case leEncrypt.leEncrypt p q =>
    obtain ⟨k1, t1⟩ := p
    obtain ⟨k2, t2⟩ := q
    obtain ⟨e1, e2⟩ := List.append_inj h (by simp [k1.len, k2.len])
    rw [show k1 = k2 from Arr.ext' e1, show t1 = t2 from Arr.ext' e2]
  case leRand.leRand => rfl
  case leStartEncryption.leStartEncryption p q =>
    simp only [cmdParams] at h
    obtain ⟨h, h4⟩ := List.append_inj h (by simp)
    obtain ⟨h, h3⟩ := List.append_inj h (by simp)
    obtain ⟨h1, h2⟩ := List.append_inj h (by simp)
    obtain ⟨p1, p2, p3, p4⟩ := p
    obtain ⟨q1, q2, q3, q4⟩ := q
    rw [show p1 = q1 from handle_inj h1, show p2 = q2 from le64_inj h2, show p3 = q3 from le16_inj h3,
      show p4 = q4 from Arr.ext' h4]
  case leLongTermKeyRequestReply.leLongTermKeyRequestReply =>
    obtain ⟨e1, e2⟩ := List.append_inj h (by simp)
    rw [handle_inj e1, Arr.ext' e2]
  case leLongTermKeyRequestNegativeReply.leLongTermKeyRequestNegativeReply => rw [handle_inj h]
  case leReadSupportedStates.leReadSupportedStates => rfl
  case leReceiverTest.leReceiverTest =>
    simp only [cmdParams, List.cons.injEq, and_true] at h
    rw [h]
  case leTransmitterTest.leTransmitterTest x n p y m q =>
    simp only [cmdReject] at ra rb
    simp only [cmdParams, List.cons.injEq, and_true] at h
    obtain ⟨h1, h2, h3⟩ := h
    have hn : n = m := by
      (repeat' split at ra) <;> first | cases ra | skip
      (repeat' split at rb) <;> first | cases rb | skip
      have := congrArg UInt8.toNat h2
      rw [UInt8.toNat_ofNat', UInt8.toNat_ofNat'] at this
      omega
    have hp : p = q := by
      revert h3
      cases p <;> cases q <;> simp [testPayloadCode]
    rw [h1, hn, hp]
  case leTestEnd.leTestEnd => rfl

/-- **C47.** Two accepted commands are written as the same packet exactly when they are the same command with
the same arguments, up to the rounding of durations to wire units, the peer address ignored under the
white-list policy, and the two names of Set Advertising Enable. -/
theorem C47_distinct (c : Cfg) (l : Link) (k : Controller σ E) (vinto : VS → UInt8) (a b : Command VS)
    (ca : a.Constructible c) (cb : b.Constructible c) (s t : σ) (h p h' p' : List UInt8)
    (ha : (a.exec (linkHeader l) (recording k) vinto (s, [])).2.2 = [.write h p])
    (hb : (b.exec (linkHeader l) (recording k) vinto (t, [])).2.2 = [.write h' p']) :
    h ++ p = h' ++ p' ↔ canonical a = canonical b := by
  obtain ⟨ra, rfl, rfl⟩ := wrote c l k vinto a ca s h p ha
  obtain ⟨rb, rfl, rfl⟩ := wrote c l k vinto b cb t h' p' hb
  rw [← packet_eq_iff (E := E) c a b ca cb ra rb]
  constructor
  · intro e
    obtain ⟨e1, e2⟩ := List.append_inj e (by cases l <;> simp [headerBytes])
    exact ⟨(headerBytes_inj l _ _ _ _ e1).1, e2⟩
  · rintro ⟨e1, e2⟩
    rw [e1, e2]

example (h : [0x01, 0x1D, 0x20, 1] ++ [3] = [0x01, 0x1D, 0x20, 1] ++ ([4] : List UInt8)) :
    canonical (.leReceiverTest 3 : Command Empty) = canonical (.leReceiverTest 4) :=
  (C47_distinct ⟨false, false⟩ .uart logController Empty.elim (.leReceiverTest 3) (.leReceiverTest 4)
    trivial trivial [] [] _ _ _ _ rfl rfl).mp h

/-- **C47.** Commands that agree up to these roundings behave alike on every controller, whatever their
arguments. -/
theorem C47_same_behaviour (c : Cfg) (l : Link) (k : Controller σ E) (vinto : VS → UInt8) (a b : Command VS)
    (ca : a.Constructible c) (cb : b.Constructible c) (h : canonical a = canonical b) :
    a.exec (linkHeader l) k vinto = b.exec (linkHeader l) k vinto := by
  have hrej : ∀ x : Command VS, cmdReject (E := E) (canonical x) = cmdReject x := by
    intro x; cases x <;> rfl
  rw [exec_eq c l k vinto a ca, exec_eq c l k vinto b cb, ← hrej a, ← hrej b, h, ← (canonical_wire a).1,
    ← (canonical_wire a).2, h, (canonical_wire b).1, (canonical_wire b).2]

/-- Commands that write the same packet though their arguments differ, and one that writes another. -/
example : let exec := fun cmd : Command Empty => (cmd.exec (linkHeader .uart) (recording logController)
      Empty.elim ([], [])).2.2
    exec (.leSetAdvertiseEnable true) = [.write [0x01, 0x0A, 0x20, 1] [1]] ∧
    exec (.leSetAdvertisingEnable true) = [.write [0x01, 0x0A, 0x20, 1] [1]] ∧
    exec (.leSetAdvertisingEnable false) = [.write [0x01, 0x0A, 0x20, 1] [0]] := ⟨rfl, rfl, rfl⟩

/-- The quantisation is visible: 20 ms and 20.1 ms are the same on the wire. -/
example : canonical (VS := Empty) (.leSetScanParameters ⟨.active, ⟨Duration.micros 20100, Duration.millis 20⟩,
      .random, .acceptAll⟩) =
    canonical (.leSetScanParameters ⟨.active, ⟨Duration.millis 20, Duration.millis 20⟩, .random, .acceptAll⟩) := by
  decide +kernel

example : canonical (VS := Empty) (.leReceiverTest 3) ≠ canonical (.leReceiverTest 4) := by decide

/-! ## C53: key material -/

/-- **C53.** The three commands that carry keys: the fields are at the prescribed offsets, unmodified. -/
theorem C53_keys (l : Link) (k : Controller σ E) (s : σ) (p : AesParameters) (q : EncryptionParameters)
    (h : ConnectionHandle) (key : Arr 16) :
    Hci.leEncrypt (linkHeader l) k p s =
      k.write (headerBytes l 0x2017 32) (p.key.val ++ p.plaintextData.val) s ∧
    Hci.leStartEncryption (linkHeader l) k q s =
      k.write (headerBytes l 0x2019 28)
        (le16 q.connHandle.val ++ le64 q.randomNumber ++ le16 q.encryptedDiversifier ++ q.longTermKey.val) s ∧
    Hci.leLongTermKeyRequestReply (linkHeader l) k h key s =
      k.write (headerBytes l 0x201A 18) (le16 h.val ++ key.val) s := by
  have un : ∀ (x y : Ctl σ (Nb E) Unit), Ctl.mapErr (commError (VS := Empty)) x = Ctl.mapErr commError y →
      x = y := by
    intro x y h
    funext s
    have := congrFun h s
    simp only [Ctl.mapErr, Prod.mk.injEq] at this
    obtain ⟨h1, h2⟩ := this
    refine Prod.ext ?_ h2
    revert h1
    cases (x s).1 with
    | ok a => cases (y s).1 <;> simp
    | panic => cases (y s).1 <;> simp
    | err e =>
      cases (y s).1 with
      | ok _ => simp
      | panic => simp
      | err e' => cases e <;> cases e' <;> simp [commError]
  have h1 := exec_eq (VS := Empty) ⟨true, true⟩ l k Empty.elim (.leEncrypt p) trivial
  have h2 := exec_eq (VS := Empty) ⟨true, true⟩ l k Empty.elim (.leStartEncryption q) trivial
  have h3 := exec_eq (VS := Empty) ⟨true, true⟩ l k Empty.elim (.leLongTermKeyRequestReply h key) trivial
  simp only [Command.exec, cmdReject, rewrapAsComm_eq, cmdOpcode, cmdParams, List.length_append, length_le16,
    length_le64, p.key.len, p.plaintextData.len, q.longTermKey.len, key.len, Nat.reduceAdd] at h1 h2 h3
  exact ⟨congrFun (un _ _ h1) s, congrFun (un _ _ h2) s, congrFun (un _ _ h3) s⟩

example : (Hci.leLongTermKeyRequestReply (linkHeader .cmdLink) logController ⟨0x0201⟩
      ⟨[1, 2, 3, 4, 5, 6, 7, 8, 9, 10, 11, 12, 13, 14, 15, 16], rfl⟩ []).2 =
    [([0x1A, 0x20, 18], [1, 2, 1, 2, 3, 4, 5, 6, 7, 8, 9, 10, 11, 12, 13, 14, 15, 16])] := rfl

/-- **C53.** The controller recovers exactly the values given: the fields cut out at the prescribed offsets. -/
theorem C53_recover (l : Link) (k : Controller σ E) (s : σ) (p : AesParameters) (q : EncryptionParameters)
    (h : ConnectionHandle) (key : Arr 16) (h1 h2 h3 e t r : List UInt8)
    (he : (Hci.leEncrypt (linkHeader l) (recording k) p (s, [])).2.2 = [.write h1 e])
    (ht : (Hci.leStartEncryption (linkHeader l) (recording k) q (s, [])).2.2 = [.write h2 t])
    (hr : (Hci.leLongTermKeyRequestReply (linkHeader l) (recording k) h key (s, [])).2.2 = [.write h3 r]) :
    e.take 16 = p.key.val ∧ e.drop 16 = p.plaintextData.val ∧
    leVal (t.take 2) = q.connHandle.val.toNat ∧ leVal ((t.drop 2).take 8) = q.randomNumber.toNat ∧
    leVal ((t.drop 10).take 2) = q.encryptedDiversifier.toNat ∧ t.drop 12 = q.longTermKey.val ∧
    leVal (r.take 2) = h.val.toNat ∧ r.drop 2 = key.val := by
  obtain ⟨w1, w2, w3⟩ := C53_keys l (recording k) (s, []) p q h key
  rw [w1] at he
  rw [w2] at ht
  rw [w3] at hr
  simp only [recording, List.nil_append, List.cons.injEq, CtlOp.write.injEq, and_true] at he ht hr
  obtain ⟨-, rfl⟩ := he
  obtain ⟨-, rfl⟩ := ht
  obtain ⟨-, rfl⟩ := hr
  have v16 : ∀ v : UInt16, leVal (le16 v) = v.toNat := by
    intro v
    rw [leVal_eq_leNat, le16, ← leBytes_eq_le, leNat_leBytes]
    have := v.toNat_lt
    omega
  have v64 : ∀ v : UInt64, leVal (le64 v) = v.toNat := by
    intro v
    rw [leVal_eq_leNat, le64, ← leBytes_eq_le, leNat_leBytes]
    have := v.toNat_lt
    omega
  simp [List.take_append, List.drop_append, List.take_of_length_le, List.drop_of_length_le, v16, v64, p.key.len]

example : (Hci.leStartEncryption (linkHeader .uart) (recording logController)
      ⟨⟨0x0102⟩, 0x1122334455667788, 0x99AA, Arr.zero 16⟩ ([], [])).2.2 =
    [.write [0x01, 0x19, 0x20, 28] ([2, 1, 0x88, 0x77, 0x66, 0x55, 0x44, 0x33, 0x22, 0x11, 0xAA, 0x99] ++
      zeroes 16)] := rfl

end Bt
