import Verif.Spec.Types
import Verif.Spec.Address
import Verif.Model.Host.Commands

/-! # Specification of the command packets (Bluetooth specification, Vol 2, Part E, 5.4.1 and 7.x)

For every command: its opcode, the bytes of its parameters, and the argument values the API documents
as rejected. The tables give the numbers of the Bluetooth specification. Of the model only the types are
used. -/

namespace Spec

open Bt

variable {E VS : Type}

/-- Opcode (OGF * 1024 + OCF) of each command. -/
def cmdOpcode : Command VS → UInt16
  | .disconnect .. => 0x0406
  | .readRemoteVersionInformation .. => 0x041D
  | .setEventMask .. => 0x0C01
  | .reset => 0x0C03
  | .readTxPowerLevel .. => 0x0C2D
  | .readLocalVersionInformation => 0x1001
  | .readLocalSupportedCommands => 0x1002
  | .readLocalSupportedFeatures => 0x1003
  | .readBdAddr => 0x1009
  | .readRssi .. => 0x1405
  | .leSetEventMask .. => 0x2001
  | .leReadBufferSize => 0x2002
  | .leReadLocalSupportedFeatures => 0x2003
  | .leSetRandomAddress .. => 0x2005
  | .leSetAdvertisingParameters .. => 0x2006
  | .leReadAdvertisingChannelTxPower => 0x2007
  | .leSetAdvertisingData .. => 0x2008
  | .leSetScanResponseData .. => 0x2009
  | .leSetAdvertiseEnable .. => 0x200A
  | .leSetAdvertisingEnable .. => 0x200A
  | .leSetScanParameters .. => 0x200B
  | .leSetScanEnable .. => 0x200C
  | .leCreateConnection .. => 0x200D
  | .leCreateConnectionCancel => 0x200E
  | .leReadWhiteListSize => 0x200F
  | .leClearWhiteList => 0x2010
  | .leAddDeviceToWhiteList .. => 0x2011
  | .leAddAnonAdvertisingDevicesToWhiteList => 0x2011
  | .leRemoveDeviceFromWhiteList .. => 0x2012
  | .leRemoveAnonAdvertisingDevicesFromWhiteList => 0x2012
  | .leConnectionUpdate .. => 0x2013
  | .leSetHostChannelClassification .. => 0x2014
  | .leReadChannelMap .. => 0x2015
  | .leReadRemoteUsedFeatures .. => 0x2016
  | .leEncrypt .. => 0x2017
  | .leRand => 0x2018
  | .leStartEncryption .. => 0x2019
  | .leLongTermKeyRequestReply .. => 0x201A
  | .leLongTermKeyRequestNegativeReply .. => 0x201B
  | .leReadSupportedStates => 0x201C
  | .leReceiverTest .. => 0x201D
  | .leTransmitterTest .. => 0x201E
  | .leTestEnd => 0x201F

/-- The disconnection reasons allowed by Vol 2, Part E, 7.1.6, with their codes. -/
def disconnectCode : Status VS → Option UInt8
  | .authFailure => some 0x05
  | .remoteTerminationByUser => some 0x13
  | .remoteTerminationLowResources => some 0x14
  | .remoteTerminationPowerOff => some 0x15
  | .unsupportedRemoteFeature => some 0x1A
  | .pairingWithUnitKeyNotSupported => some 0x29
  | .unacceptableConnectionParameters => some 0x3B
  | _ => none

/-- Boolean parameters. -/
def flagByte (b : Bool) : UInt8 := if b then 1 else 0

/-- Own_Address_Type. -/
def ownAddressCode : OwnAddressType → UInt8
  | .pub => 0
  | .random => 1
  | .privateFallbackPublic => 2
  | .privateFallbackRandom => 3

/-- Peer_Address_Type and Peer_Address. -/
def peerBytes : PeerAddrType → List UInt8
  | .publicDeviceAddress a => 0 :: a.val.val
  | .randomDeviceAddress a => 1 :: a.val.val
  | .publicIdentityAddress a => 2 :: a.val.val
  | .randomIdentityAddress a => 3 :: a.val.val

/-- Advertising_Filter_Policy. -/
def advFilterCode : AdvertisingFilterPolicy → UInt8
  | .allowConnectionAndScan => 0
  | .allowConnectionWhiteListScan => 1
  | .whiteListConnectionAllowScan => 2
  | .whiteListConnectionAndScan => 3

/-- LE_Scan_Type. -/
def scanTypeCode : ScanType → UInt8
  | .passive => 0
  | .active => 1

/-- Scanning_Filter_Policy. -/
def scanFilterCode : ScanFilterPolicy → UInt8
  | .acceptAll => 0
  | .whiteList => 1
  | .addressedToThisDevice => 2
  | .whiteListAddressedToThisDevice => 3

/-- Packet_Payload of LE Transmitter Test. -/
def testPayloadCode : TestPacketPayload → UInt8
  | .prbS9 => 0
  | .nibbles10 => 1
  | .bits10 => 2
  | .prbS15 => 3
  | .all1 => 4
  | .all0 => 5
  | .nibbles01 => 6
  | .bits01 => 7

/-- Advertising_Interval_Min, Advertising_Interval_Max and Advertising_Type; the intervals are zero for
high duty cycle directed advertising. -/
def advIntervalBytes (x : AdvertisingInterval) : List UInt8 :=
  (if x.advertisingType = .connectableDirectedHighDutyCycle then [0, 0, 0, 0]
    else le 2 (units625us x.min.ns) ++ le 2 (units625us x.max.ns)) ++ [advTypeCode x.advertisingType]

/-- LE_Scan_Interval and LE_Scan_Window. -/
def scanWindowBytes (x : ScanWindow) : List UInt8 :=
  le 2 (units625us x.intervalWidth.ns) ++ le 2 (units625us x.windowWidth.ns)

/-- Conn_Interval_Min, Conn_Interval_Max, Conn_Latency and Supervision_Timeout. -/
def connIntervalBytes (x : ConnectionInterval) : List UInt8 :=
  le 2 (writtenInterval x.intervalMin.ns) ++ le 2 (writtenInterval x.intervalMax.ns) ++
    le16 x.connLatency ++ le 2 (units10ms x.supervisionTimeout.ns)

/-- Minimum_CE_Length and Maximum_CE_Length. -/
def connLengthBytes (x : ExpectedConnectionLength) : List UInt8 :=
  le 2 (units625us x.min.ns) ++ le 2 (units625us x.max.ns)

/-- Length, data, and zero padding up to 32 bytes. -/
def outboundData (data : List UInt8) : List UInt8 :=
  UInt8.ofNat data.length :: data ++ zeroes (31 - data.length)

/-- The parameter bytes of each command. -/
def cmdParams : Command VS → List UInt8
  | .disconnect h r => le16 h.val ++ [(disconnectCode r).getD 0]
  | .readRemoteVersionInformation h => le16 h.val
  | .setEventMask m => le64 m
  | .reset => []
  | .readTxPowerLevel h t => le16 h.val ++ [match t with | .current => 0 | .maximum => 1]
  | .readLocalVersionInformation => []
  | .readLocalSupportedCommands => []
  | .readLocalSupportedFeatures => []
  | .readBdAddr => []
  | .readRssi h => le16 h.val
  | .leSetEventMask m => le64 m
  | .leReadBufferSize => []
  | .leReadLocalSupportedFeatures => []
  | .leSetRandomAddress a => a.val.val
  | .leSetAdvertisingParameters p =>
    advIntervalBytes p.advertisingInterval ++ [ownAddressCode p.ownAddressType] ++
      addrTypeBytes p.peerAddress ++ [p.advertisingChannelMap, advFilterCode p.advertisingFilterPolicy]
  | .leReadAdvertisingChannelTxPower => []
  | .leSetAdvertisingData d => outboundData d
  | .leSetScanResponseData d => outboundData d
  | .leSetAdvertiseEnable b => [flagByte b]
  | .leSetAdvertisingEnable b => [flagByte b]
  | .leSetScanParameters p =>
    [scanTypeCode p.scanType] ++ scanWindowBytes p.scanWindow ++
      [ownAddressCode p.ownAddressType, scanFilterCode p.filterPolicy]
  | .leSetScanEnable e f => [flagByte e, flagByte f]
  | .leCreateConnection p =>
    scanWindowBytes p.scanWindow ++
      (match p.initiatorFilterPolicy with
        | .useAddress => 0 :: peerBytes p.peerAddress
        | .whiteList => 1 :: zeroes 7) ++
      [ownAddressCode p.ownAddressType] ++ connIntervalBytes p.connInterval ++
      connLengthBytes p.expectedConnectionLength
  | .leCreateConnectionCancel => []
  | .leReadWhiteListSize => []
  | .leClearWhiteList => []
  | .leAddDeviceToWhiteList a => addrTypeBytes a
  | .leAddAnonAdvertisingDevicesToWhiteList => 0xFF :: zeroes 6
  | .leRemoveDeviceFromWhiteList a => addrTypeBytes a
  | .leRemoveAnonAdvertisingDevicesFromWhiteList => 0xFF :: zeroes 6
  | .leConnectionUpdate p =>
    le16 p.connHandle.val ++ connIntervalBytes p.connInterval ++
      connLengthBytes p.expectedConnectionLength
  | .leSetHostChannelClassification ch => ch.arr.val
  | .leReadChannelMap h => le16 h.val
  | .leReadRemoteUsedFeatures h => le16 h.val
  | .leEncrypt p => p.key.val ++ p.plaintextData.val
  | .leRand => []
  | .leStartEncryption p =>
    le16 p.connHandle.val ++ le64 p.randomNumber ++ le16 p.encryptedDiversifier ++ p.longTermKey.val
  | .leLongTermKeyRequestReply h key => le16 h.val ++ key.val
  | .leLongTermKeyRequestNegativeReply h => le16 h.val
  | .leReadSupportedStates => []
  | .leReceiverTest ch => [ch]
  | .leTransmitterTest ch n p => [ch, UInt8.ofNat n, testPayloadCode p]
  | .leTestEnd => []

/-- The documented error for argument values that are rejected; `none` for acceptable arguments. -/
def cmdReject : Command VS → Option (HostError E VS)
  | .disconnect _ r => if disconnectCode r = none then some (.badDisconnectionReason r) else none
  | .leSetRandomAddress a => if ValidRandomAddress a then none else some (.badRandomAddress a)
  | .leSetAdvertisingParameters p =>
    if p.advertisingChannelMap = 0 then some (.badChannelMap 0) else none
  | .leSetAdvertisingData d =>
    if 31 < d.length then some (.advertisingDataTooLong d.length) else none
  | .leSetScanResponseData d =>
    if 31 < d.length then some (.advertisingDataTooLong d.length) else none
  | .leSetHostChannelClassification ch =>
    if ∀ b ∈ ch.arr.val, b = 0 then some .noValidChannel else none
  | .leReceiverTest ch => if 39 < ch.toNat then some (.invalidTestChannel ch) else none
  | .leTransmitterTest ch n _ =>
    if 39 < ch.toNat then some (.invalidTestChannel ch)
    else if 37 < n then some (.invalidTestPayloadLength n) else none
  | _ => none

/-- The two ways to send commands. -/
inductive Link where
  | uart
  | cmdLink
  deriving DecidableEq, Repr

/-- The header type the crate uses on each link. -/
def linkHeader : Link → HciHeader
  | .uart => uartHeader
  | .cmdLink => cmdLinkHeader

/-- Bytes before the parameters: packet indicator 0x01 (UART only), opcode, parameter length. -/
def headerBytes (l : Link) (op : UInt16) (len : Nat) : List UInt8 :=
  (match l with | .uart => [0x01] | .cmdLink => []) ++ le16 op ++ [UInt8.ofNat len]

/-- Communication errors are passed on as `Comm`; `WouldBlock` stays. -/
def commError : Nb E → Nb (HostError E VS)
  | .wouldBlock => .wouldBlock
  | .other e => .other (.comm e)

end Spec
