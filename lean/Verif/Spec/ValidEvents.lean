import Verif.Spec.Events

/-! # Specification: the events an application can be given -/

namespace Spec

open Bt

/-- The statuses that occur: the standard ones of the configuration, and those that the vendor makes of a code
beyond them. -/
def ValidStatus (c : Cfg) (V : Vendor) : Status V.VStatus → Prop
  | .vendor v => ∃ b : UInt8, statusCount c ≤ b.toNat ∧ V.statusTryFrom b = .ok v
  | s => ∃ n, n < statusCount c ∧ standardStatuses[n]? = some s

/-- The parameters of a connection: on the grid of the air interface and within the documented bounds. -/
def ValidInterval (i : FixedConnectionInterval) : Prop :=
  1250 * us ∣ i.interval.ns ∧ 10 * ms ∣ i.supervisionTimeout.ns ∧
    LegalConnection i.interval.ns i.interval.ns i.connLatency.toNat i.supervisionTimeout.ns

/-- The part of a buffer after the first `n` bytes is not used. -/
def UnusedAfter {m : Nat} (buf : Arr m) (n : Nat) : Prop := ∀ b ∈ buf.val.drop n, b = 0

/-- The replies that occur. Which vendor replies occur is the vendor's business. -/
def ValidReply (c : Cfg) (V : Vendor) : ReturnParameters V.VStatus V.VRet → Prop
  | .spontaneous => True
  | .readTxPowerLevel p => ValidStatus c V p.status
  | .readLocalVersionInformation p => ValidStatus c V p.status
  | .readLocalSupportedCommands p => ValidStatus c V p.status ∧
      ∀ i j, HasBit p.supportedCommands.arr.val i j → CommandBit c i j
  | .readLocalSupportedFeatures p => ValidStatus c V p.status ∧
      ∀ j, p.supportedFeatures.toNat.testBit j = true → LmpFeatureBit j
  | .readBdAddr p => ValidStatus c V p.status
  | .readRssi p => ValidStatus c V p.status
  | .leReadBufferSize p => ValidStatus c V p.status
  | .leReadLocalSupportedFeatures p => ValidStatus c V p.status ∧
      ∀ j, p.supportedFeatures.toNat.testBit j = true → LeFeatureBit c j
  | .leReadAdvertisingChannelTxPower p => ValidStatus c V p.status
  | .leSetAdvertiseEnable s => c.v50 = false ∧ ValidStatus c V s
  | .leSetAdvertisingEnable s => c.v50 = true ∧ ValidStatus c V s
  | .leReadWhiteListSize s n => ValidStatus c V s ∧ n < 256
  | .leReadChannelMap p => ValidStatus c V p.status ∧
      ∀ i j, HasBit p.channelMap.arr.val i j → ChannelBit i j
  | .leEncrypt p => ValidStatus c V p.status
  | .leRand p => ValidStatus c V p.status
  | .leLongTermKeyRequestReply p => ValidStatus c V p.status
  | .leLongTermKeyRequestNegativeReply p => ValidStatus c V p.status
  | .leReadSupportedStates p => ValidStatus c V p.status ∧
      ∀ j, p.supportedStates.toNat.testBit j = true → LeStateBit j
  | .leTestEnd p => ValidStatus c V p.status ∧ p.numberOfPackets < 65536
  | .setEventMask s | .reset s | .leSetEventMask s | .leSetRandomAddress s | .leSetAdvertisingParameters s
  | .leSetAdvertisingData s | .leSetScanResponseData s | .leSetScanParameters s | .leSetScanEnable s
  | .leCreateConnectionCancel s | .leClearWhiteList s | .leAddDeviceToWhiteList s
  | .leRemoveDeviceFromWhiteList s | .leSetHostChannelClassification s | .leReceiverTest s
  | .leTransmitterTest s => ValidStatus c V s
  | .vendor _ => True

/-- The events that occur. -/
def ValidEvent (c : Cfg) (V : Vendor) : V.Ev → Prop
  | .connectionComplete e => ValidStatus c V e.status
  | .disconnectionComplete e => ValidStatus c V e.status ∧ ValidStatus c V e.reason
  | .encryptionChange e => ValidStatus c V e.status
  | .readRemoteVersionInformationComplete e => ValidStatus c V e.status
  | .commandComplete ⟨n, .vendor r⟩ => ∃ o ps, VendorOpcode o ∧ ps.length ≤ 252 ∧
      V.retNew (n :: le16 o ++ ps) = .ok r
  | .commandComplete e => ValidReply c V e.returnParams
  | .commandStatus e => ValidStatus c V e.status
  | .hardwareError _ => True
  | .numberOfCompletedPackets e => e.numHandles ≤ 63 ∧ UnusedAfter e.dataBuf (4 * e.numHandles)
  | .dataBufferOverflow _ => True
  | .encryptionKeyRefreshComplete e => ValidStatus c V e.status
  | .leConnectionComplete e => ValidStatus c V e.status ∧ ValidInterval e.connInterval
  | .leAdvertisingReport e => e.dataLen ≤ 253 ∧ UnusedAfter e.dataBuf e.dataLen ∧
      ∃ as, (∀ a ∈ as, Reportable a) ∧ e.dataBuf.val.take e.dataLen = advsBytes as
  | .leConnectionUpdateComplete e => ValidStatus c V e.status ∧ ValidInterval e.connInterval
  | .leReadRemoteUsedFeaturesComplete e => ValidStatus c V e.status ∧
      ∀ j, e.features.toNat.testBit j = true → LeFeatureBit c j
  | .leLongTermKeyRequest _ => True
  | .leDataLengthChangeEvent _ => True
  | .lePhyUpdateComplete e => ValidStatus c V e.status
  | .vendor e => ∃ ps : List UInt8, ps.length ≤ 255 ∧ V.eventNew ps = .ok e

end Spec
