import Verif.Lemmas.Commands

/-! # What a command does, for any header type -/

namespace Bt

open Spec

variable {σ E VS : Type}

theorem setOutboundData_eq (H : HciHeader) (k : Controller σ E) (hdr : UInt16 → Nat → List UInt8)
    (hw : ∀ op params, writeCommand H k op params = k.write (hdr op.val params.length) params)
    (op : Opcode) (data : List UInt8) :
    setOutboundData (VS := VS) H k op data =
      if 31 < data.length then Ctl.lift (.err (.other (.advertisingDataTooLong data.length)))
      else Ctl.mapErr commError (k.write (hdr op.val (outboundData data).length) (outboundData data)) := by
  unfold setOutboundData
  by_cases h : 31 < data.length
  · rw [if_pos h, if_pos h]
  · rw [if_neg h, if_neg h]
    have h1 := next_setByte (ε := Nb (HostError E VS)) [] 31 0 (UInt8.ofNat data.length) rfl
    simp only [List.nil_append, Nat.reduceAdd] at h1
    rw [zeros_eq, h1, Ctl.bind_lift_ok]
    have h2 := next_copy (ε := Nb (HostError E VS)) [UInt8.ofNat data.length] (31 - data.length) data.length 1
      (data.length + 1) data rfl (by omega) rfl
    rw [show data.length + (31 - data.length) = 31 by omega] at h2
    rw [h2, Ctl.bind_lift_ok, hw, rewrapAsComm_eq]
    rfl

theorem exec_eq_gen (c : Cfg) (H : HciHeader) (k : Controller σ E) (hdr : UInt16 → Nat → List UInt8)
    (hw : ∀ op params, writeCommand H k op params = k.write (hdr op.val params.length) params)
    (vinto : VS → UInt8) (cmd : Command VS) (hc : cmd.Constructible c) :
    cmd.exec H k vinto =
      match cmdReject cmd with
      | some e => Ctl.lift (.err (.other e))
      | none => Ctl.mapErr commError
          (k.write (hdr (cmdOpcode cmd) (cmdParams cmd).length) (cmdParams cmd)) := by
  have hU : ∀ (v : UInt16), writeU16 (ε := Nb E) (zeroes 2) v = .ok (le16 v) := by
    intro v
    rw [writeU16_eq _ (by simp)]
    simp
  have hU' : ∀ (v : UInt16), writeU16 (ε := Nb E) (zeroes 3) v = .ok (le16 v ++ zeroes 1) := by
    intro v
    rw [writeU16_eq _ (by simp)]
    simp
  have hV : ∀ (v : UInt64), writeU64 (ε := Nb E) (zeroes 8) v = .ok (le64 v) := by
    intro v
    rw [writeU64_eq _ (by simp)]
    simp
  have hW : ∀ {ε : Type} (n : Nat) (v : UInt16), withRange (ε := ε) (zeroes (2 + n)) 0 (2 + n)
      (fun s => writeU16 s v) = .ok (le16 v ++ zeroes n) := by
    intro ε n v
    exact next_u16 [] n 0 (2 + n) v rfl (by omega)
  cases cmd with
  | disconnect h r =>
    have hgood : ∀ code : UInt8, disconnectCode r = some code → r.into vinto = code →
        (do
          let params ← Ctl.lift (withRange (zeros 3) 0 3 (fun s => writeU16 s h.val))
          let params ← Ctl.lift (setByte params 2 (r.into vinto))
          Ctl.mapErr rewrapAsComm (writeCommand H k opcode.DISCONNECT params)) =
        Ctl.mapErr (commError (VS := VS))
          (k.write (hdr 0x0406 (le16 h.val ++ [code]).length) (le16 h.val ++ [code])) := by
      intro code h1 h2
      rw [zeros_eq, hW 1, Ctl.bind_lift_ok, next_setByte _ 0 2 _ (by simp), Ctl.bind_lift_ok, hw,
        rewrapAsComm_eq, h2]
      simp only [zeroes_zero, List.append_nil]
      rfl
    simp only [Command.exec, Hci.disconnect, cmdReject, cmdParams, cmdOpcode]
    cases r <;> first | exact hgood _ rfl rfl | rfl
  | readRemoteVersionInformation h =>
    simp only [Command.exec, Hci.readRemoteVersionInformation, zeros_eq, hU, Ctl.bind_lift_ok, hw,
      rewrapAsComm_eq]
    rfl
  | setEventMask m =>
    simp only [Command.exec, Hci.setEventMask, zeros_eq, hV, Ctl.bind_lift_ok, hw, rewrapAsComm_eq]
    rfl
  | readTxPowerLevel h t =>
    simp only [Command.exec, Hci.readTxPowerLevel, zeros_eq, hU', Ctl.bind_lift_ok]
    rw [next_setByte _ 0 2 _ (by simp), Ctl.bind_lift_ok, hw, rewrapAsComm_eq]
    simp only [zeroes_zero, List.append_nil, cmdParams, cmdReject]
    cases t <;> rfl
  | readRssi h =>
    simp only [Command.exec, Hci.readRssi, zeros_eq, hU, Ctl.bind_lift_ok, hw, rewrapAsComm_eq]
    rfl
  | leSetEventMask m =>
    simp only [Command.exec, Hci.leSetEventMask, zeros_eq, hV, Ctl.bind_lift_ok, hw, rewrapAsComm_eq]
    rfl
  | leSetRandomAddress a =>
    simp only [Command.exec, Hci.leSetRandomAddress, C44_random_address, cmdReject]
    by_cases h : ValidRandomAddress a
    · rw [if_pos h, if_pos h]
      simp only [Res.mapErr_ok, Ctl.bind_lift_ok, hw, rewrapAsComm_eq]
      rfl
    · rw [if_neg h, if_neg h]
      rfl
  | leSetAdvertisingParameters p =>
    simp only [Command.exec, Hci.leSetAdvertisingParameters, cmdReject, zeros_eq, advParams_eq c p hc]
    by_cases h : p.advertisingChannelMap = 0
    · rw [if_pos h, if_pos h]
      rfl
    · rw [if_neg h, if_neg h]
      simp only [Res.mapErr_ok, Ctl.bind_lift_ok, hw, rewrapAsComm_eq]
      rfl
  | leSetAdvertisingData d =>
    simp only [Command.exec, Hci.leSetAdvertisingData, setOutboundData_eq H k hdr hw, cmdReject]
    by_cases h : 31 < d.length
    · rw [if_pos h, if_pos h]
    · rw [if_neg h, if_neg h]
      rfl
  | leSetScanResponseData d =>
    simp only [Command.exec, Hci.leSetScanResponseData, setOutboundData_eq H k hdr hw, cmdReject]
    by_cases h : 31 < d.length
    · rw [if_pos h, if_pos h]
    · rw [if_neg h, if_neg h]
      rfl
  | leSetScanParameters p =>
    simp only [Command.exec, Hci.leSetScanParameters, zeros_eq, scanParams_eq (VS := VS) p hc,
      Ctl.bind_lift_ok, hw, rewrapAsComm_eq]
    rfl
  | leCreateConnection p =>
    simp only [Command.exec, Hci.leCreateConnection, zeros_eq,
      connParams_eq (VS := VS) p hc.1 hc.2.1 hc.2.2, Ctl.bind_lift_ok, hw, rewrapAsComm_eq]
    rfl
  | leAddDeviceToWhiteList a =>
    simp only [Command.exec, Hci.leAddDeviceToWhiteList, zeros_eq, copyAddrType_eq, length_zeroes, if_true,
      Ctl.bind_lift_ok, hw, rewrapAsComm_eq]
    rfl
  | leRemoveDeviceFromWhiteList a =>
    simp only [Command.exec, Hci.leRemoveDeviceFromWhiteList, zeros_eq, copyAddrType_eq, length_zeroes,
      if_true, Ctl.bind_lift_ok, hw, rewrapAsComm_eq]
    rfl
  | leConnectionUpdate p =>
    simp only [Command.exec, Hci.leConnectionUpdate, zeros_eq,
      connUpdate_eq (VS := VS) p hc.1 hc.2, Ctl.bind_lift_ok, hw, rewrapAsComm_eq]
    rfl
  | leSetHostChannelClassification ch =>
    simp only [Command.exec, Hci.leSetHostChannelClassification, cmdReject]
    have he : ch.isEmpty = true ↔ ∀ b ∈ ch.arr.val, b = 0 := by simp [BFlags.isEmpty]
    by_cases h : ∀ b ∈ ch.arr.val, b = 0
    · rw [if_pos h, if_pos (he.mpr h)]
    · rw [if_neg h, if_neg (fun hh => h (he.mp hh))]
      have h1 : ch.copyIntoSlice (ε := Nb (HostError E VS)) (zeroes 5) = .ok ch.arr.val := by
        unfold BFlags.copyIntoSlice
        have hl := ch.arr.len
        rw [beq_iff_eq.mpr (by rw [hl, length_zeroes])]
        simp only [Res.assert_true, Res.bind_ok]
        rw [copyRange_of_le (by omega) (by simp) (by simp [hl])]
        simp
      rw [zeros_eq, h1, Ctl.bind_lift_ok, hw, rewrapAsComm_eq]
      rfl
  | leReadChannelMap h =>
    simp only [Command.exec, Hci.leReadChannelMap, zeros_eq, hU, Ctl.bind_lift_ok, hw, rewrapAsComm_eq]
    rfl
  | leReadRemoteUsedFeatures h =>
    simp only [Command.exec, Hci.leReadRemoteUsedFeatures, zeros_eq, hU, Ctl.bind_lift_ok, hw,
      rewrapAsComm_eq]
    rfl
  | leEncrypt p =>
    simp only [Command.exec, Hci.leEncrypt, zeros_eq]
    have h1 := next_copy (ε := Nb E) [] 16 16 0 16 p.key.val rfl rfl p.key.len
    simp only [List.nil_append, Nat.reduceAdd] at h1
    rw [h1, Ctl.bind_lift_ok, next_copy _ 0 16 16 _ _ p.key.len.symm (by simp [p.key.len]) p.plaintextData.len,
      Ctl.bind_lift_ok, hw, rewrapAsComm_eq]
    simp only [zeroes_zero, List.append_nil]
    rfl
  | leStartEncryption p =>
    simp only [Command.exec, Hci.leStartEncryption, zeros_eq, length_zeroes]
    rw [hW 26, Ctl.bind_lift_ok, next_u64 _ 18 2 _ _ (by simp) (by simp), Ctl.bind_lift_ok,
      next_u16 _ 16 10 _ _ (by simp) (by simp), Ctl.bind_lift_ok,
      next_copy _ 0 16 12 _ _ (by simp) (by simp) p.longTermKey.len, Ctl.bind_lift_ok, hw, rewrapAsComm_eq]
    simp only [zeroes_zero, List.append_nil]
    rfl
  | leLongTermKeyRequestReply h key =>
    simp only [Command.exec, Hci.leLongTermKeyRequestReply, zeros_eq, length_zeroes]
    rw [hW 16, Ctl.bind_lift_ok, next_copy _ 0 16 2 _ _ (by simp) (by simp) key.len, Ctl.bind_lift_ok, hw,
      rewrapAsComm_eq]
    simp only [zeroes_zero, List.append_nil]
    rfl
  | leLongTermKeyRequestNegativeReply h =>
    simp only [Command.exec, Hci.leLongTermKeyRequestNegativeReply, zeros_eq, length_zeroes]
    rw [hW 0, Ctl.bind_lift_ok, hw, rewrapAsComm_eq]
    simp only [zeroes_zero, List.append_nil]
    rfl
  | leReceiverTest ch =>
    simp only [Command.exec, Hci.leReceiverTest, cmdReject]
    have he : ch > Hci.MAX_TEST_CHANNEL ↔ 39 < ch.toNat := by
      rw [gt_iff_lt, UInt8.lt_iff_toNat_lt]; rfl
    by_cases h : 39 < ch.toNat
    · rw [if_pos h, if_pos (he.mpr h)]
    · rw [if_neg h, if_neg (fun hh => h (he.mp hh)), hw, rewrapAsComm_eq]
      rfl
  | leTransmitterTest ch n p =>
    simp only [Command.exec, Hci.leTransmitterTest, cmdReject]
    have he : ch > Hci.MAX_TEST_CHANNEL ↔ 39 < ch.toNat := by
      rw [gt_iff_lt, UInt8.lt_iff_toNat_lt]; rfl
    have hp : p.asU8 = testPayloadCode p := by cases p <;> rfl
    by_cases h : 39 < ch.toNat
    · rw [if_pos h, if_pos (he.mpr h)]
    · rw [if_neg h, if_neg (fun hh => h (he.mp hh))]
      by_cases h' : 37 < n
      · rw [if_pos h', if_pos h']
      · rw [if_neg h', if_neg h', hw, rewrapAsComm_eq, hp]
        rfl
  | _ =>
    simp only [Command.exec, Hci.reset, Hci.readLocalVersionInformation, Hci.readLocalSupportedCommands,
      Hci.readLocalSupportedFeatures, Hci.readBdAddr, Hci.leReadBufferSize,
      Hci.leReadLocalSupportedFeatures, Hci.leReadAdvertisingChannelTxPower, Hci.leSetAdvertiseEnable,
      Hci.leSetAdvertisingEnable, Hci.leSetScanEnable, Hci.leCreateConnectionCancel,
      Hci.leReadWhiteListSize, Hci.leClearWhiteList, Hci.leAddAnonAdvertisingDevicesToWhiteList,
      Hci.leRemoveAnonAdvertisingDevicesFromWhiteList, Hci.leRand, Hci.leReadSupportedStates,
      Hci.leTestEnd, hw, rewrapAsComm_eq]
    rfl

theorem exec_eq (c : Cfg) (l : Link) (k : Controller σ E)
    (vinto : VS → UInt8) (cmd : Command VS) (hc : cmd.Constructible c) :
    cmd.exec (linkHeader l) k vinto =
      match cmdReject cmd with
      | some e => Ctl.lift (.err (.other e))
      | none => Ctl.mapErr commError
          (k.write (headerBytes l (cmdOpcode cmd) (cmdParams cmd).length) (cmdParams cmd)) :=
  exec_eq_gen c _ k (headerBytes l) (writeCommand_eq l k) vinto cmd hc

end Bt
