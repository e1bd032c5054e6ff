import Verif.Model.Debug
import Verif.Model.Host.Read

/-! # Model of the derived `Debug` implementations of everything that `read` returns

`core::fmt` is trusted to render derived structs and enums with `debug_struct` and `debug_tuple` as below, and
`Duration` as documented; crate `bitflags` 1.2 is trusted to render its types as below. Numbers, `bool` and
`Duration` print alike as `{:?}` and as `{:#?}`. -/

namespace Bt

variable [Style]

/-- `{:?}` of a `bool` (`core::fmt`). -/
def fmtBool (b : Bool) : Text := if b then "true".toList else "false".toList

/-- The digits after the decimal point, up to the last one that is not zero; at most nine (`core::time`). -/
def fmtFrac : Nat → Nat → Nat → Text
  | 0, _, _ => []
  | n + 1, frac, divisor =>
    if frac = 0 then [] else Nat.digitChar (frac / divisor) :: fmtFrac n (frac % divisor) (divisor / 10)

/-- `fmt_decimal` (`core::time`) without width and precision. -/
def fmtDecimal (int frac divisor : Nat) : Text :=
  fmtDec int ++ (if frac = 0 then [] else '.' :: fmtFrac 9 frac divisor)

/-- `{:?}` of a `Duration` (`core::time`). -/
def Duration.debug (d : Duration) : Text :=
  let secs := d.ns / 1000000000
  let nanos := d.ns % 1000000000
  if 0 < secs then fmtDecimal secs nanos 100000000 ++ ['s']
  else if 1000000 ≤ nanos then fmtDecimal (nanos / 1000000) (nanos % 1000000) 100000 ++ ['m', 's']
  else if 1000 ≤ nanos then fmtDecimal (nanos / 1000) (nanos % 1000) 100 ++ ['µ', 's']
  else fmtDecimal nanos 0 1 ++ ['n', 's']

/-- Words separated by `" | "`. -/
def fmtAlternatives : List Text → Text
  | [] => []
  | [x] => x
  | x :: y :: xs => x ++ ' ' :: '|' :: ' ' :: fmtAlternatives (y :: xs)

/-- `{:?}` of a `bitflags!` type (crate `bitflags` 1.2): the names of the flags that are set in declaration order,
then the remaining bits in hexadecimal, as `{:#x}` if the form is the alternate one. -/
def fmtFlags (c : Cfg) (t : List FlagDecl) (x : UInt64) : Text :=
  let names := ((t.filter fun d => d.gate.on c).filter fun d => x &&& d.mask = d.mask).map fun d => d.name.toList
  let extra := x &&& ~~~ allBits c t
  let words := names ++ if extra = 0 then [] else ['0' :: 'x' :: ((if Style.alternate then ['0', 'x'] else []) ++ Nat.toDigits 16 extra.toNat)]
  if words.isEmpty then "(empty)".toList else fmtAlternatives words

/-- The variant names of `Status`: lib.rs 330-483. -/
def Status.name {VS : Type} : Status VS → String
  | .success => "Success"
  | .unknownCommand => "UnknownCommand"
  | .unknownConnectionId => "UnknownConnectionId"
  | .hardwareFailure => "HardwareFailure"
  | .pageTimeout => "PageTimeout"
  | .authFailure => "AuthFailure"
  | .pinOrKeyMissing => "PinOrKeyMissing"
  | .outOfMemory => "OutOfMemory"
  | .connectionTimeout => "ConnectionTimeout"
  | .connectionLimitExceeeded => "ConnectionLimitExceeeded"
  | .syncConnectionLimitExceeded => "SyncConnectionLimitExceeded"
  | .connectionAlreadyExists => "ConnectionAlreadyExists"
  | .commandDisallowed => "CommandDisallowed"
  | .limitedResources => "LimitedResources"
  | .connectionRejectedSecurity => "ConnectionRejectedSecurity"
  | .unacceptableBdAddr => "UnacceptableBdAddr"
  | .acceptTimeoutExceeded => "AcceptTimeoutExceeded"
  | .unsupportedFeature => "UnsupportedFeature"
  | .invalidParameters => "InvalidParameters"
  | .remoteTerminationByUser => "RemoteTerminationByUser"
  | .remoteTerminationLowResources => "RemoteTerminationLowResources"
  | .remoteTerminationPowerOff => "RemoteTerminationPowerOff"
  | .connectionTerminatedByHost => "ConnectionTerminatedByHost"
  | .repeatedAttempts => "RepeatedAttempts"
  | .pairingNotAllowed => "PairingNotAllowed"
  | .unknownLmpPdu => "UnknownLmpPdu"
  | .unsupportedRemoteFeature => "UnsupportedRemoteFeature"
  | .scoOffsetRejected => "ScoOffsetRejected"
  | .scoIntervalRejected => "ScoIntervalRejected"
  | .scoAirModeRejected => "ScoAirModeRejected"
  | .invalidLmpParameters => "InvalidLmpParameters"
  | .unspecifiedError => "UnspecifiedError"
  | .unsupportedLmpParameterValue => "UnsupportedLmpParameterValue"
  | .roleChangeNotAllowed => "RoleChangeNotAllowed"
  | .lmpResponseTimeout => "LmpResponseTimeout"
  | .lmpTransactionCollision => "LmpTransactionCollision"
  | .lmpPduNotAllowed => "LmpPduNotAllowed"
  | .encryptionModeNotAcceptable => "EncryptionModeNotAcceptable"
  | .linkKeyCannotBeChanged => "LinkKeyCannotBeChanged"
  | .requestedQosNotSupported => "RequestedQosNotSupported"
  | .instantPassed => "InstantPassed"
  | .pairingWithUnitKeyNotSupported => "PairingWithUnitKeyNotSupported"
  | .differentTransactionCollision => "DifferentTransactionCollision"
  | .reservedforFutureUse => "ReservedforFutureUse"
  | .qosUnacceptableParameter => "QosUnacceptableParameter"
  | .qosRejected => "QosRejected"
  | .channelClassificationNotSupported => "ChannelClassificationNotSupported"
  | .insufficientSecurity => "InsufficientSecurity"
  | .parameterOutOfMandatoryRange => "ParameterOutOfMandatoryRange"
  | .reservedForFutureUse49 => "ReservedForFutureUse49"
  | .roleSwitchPending => "RoleSwitchPending"
  | .reservedForFutureUse51 => "ReservedForFutureUse51"
  | .reservedSlotViolation => "ReservedSlotViolation"
  | .roleSwitchFailed => "RoleSwitchFailed"
  | .extendedInquiryResponseTooLarge => "ExtendedInquiryResponseTooLarge"
  | .secureSimplePairingNotSupportedByHost => "SecureSimplePairingNotSupportedByHost"
  | .hostBusyPairing => "HostBusyPairing"
  | .connectionRejectedNoSuitableChannel => "ConnectionRejectedNoSuitableChannel"
  | .controllerBusy => "ControllerBusy"
  | .unacceptableConnectionParameters => "UnacceptableConnectionParameters"
  | .advertisingTimeout => "AdvertisingTimeout"
  | .connectionTerminatedMicFailure => "ConnectionTerminatedMicFailure"
  | .connectionFailedToEstablish => "ConnectionFailedToEstablish"
  | .macConnectionFailed => "MacConnectionFailed"
  | .coarseClockAdjustmentRejectedDraggingAttempted => "CoarseClockAdjustmentRejectedDraggingAttempted"
  | .type0SubmapNotDefined => "Type0SubmapNotDefined"
  | .unknownAdvertisingId => "UnknownAdvertisingId"
  | .limitReached => "LimitReached"
  | .operationCancelledByHost => "OperationCancelledByHost"
  | .vendor _ => "Vendor"

/-- `#[derive(Debug)]` of `Status`: lib.rs 329-483. -/
def Status.debug {VS : Type} (vs : VS → Text) : Status VS → Text
  | .vendor v => fmtVariant "Vendor" [vs v]
  | s => fmtVariant s.name []

/-- `#[derive(Debug)]` of `ConnectionHandle`: lib.rs 707-708. -/
def ConnectionHandle.debug (h : ConnectionHandle) : Text := fmtTuple "ConnectionHandle" [fmtDec h.val.toNat]

/-- `#[derive(Debug)]` of `Opcode`: opcode.rs 4-5. -/
def Opcode.debug (o : Opcode) : Text := fmtTuple "Opcode" [fmtDec o.val.toNat]

/-- `#[derive(Debug)]` of `BdAddr`: lib.rs 711-712. -/
def BdAddr.debugIn (a : BdAddr) : Text := fmtTuple "BdAddr" [fmtList (fmtDec ·.toNat) a.val.val]

/-- `#[derive(Debug)]` of `BdAddrType`: lib.rs 715-722. -/
def BdAddrType.debugIn : BdAddrType → Text
  | .pub a => fmtVariant "Public" [a.debugIn]
  | .random a => fmtVariant "Random" [a.debugIn]

/-- `#[derive(Debug)]` of `NumberOfCompletedPacketsPair`: event/mod.rs 718-726. -/
def NumberOfCompletedPacketsPair.debugIn (p : NumberOfCompletedPacketsPair) : Text :=
  fmtStruct "NumberOfCompletedPacketsPair" [("conn_handle", p.connHandle.debug),
    ("num_completed_packets", fmtDec p.numCompletedPackets)]

/-- `Debug` of `Option<i8>` (`core`). -/
def fmtRssiIn : Option Int8 → Text
  | none => fmtVariant "None" []
  | some x => fmtVariant "Some" [fmtInt8 x]

/-- `#[derive(Debug)]` of `LeAdvertisement`: event/mod.rs 1063-1079. -/
def LeAdvertisement.debugIn (a : LeAdvertisement) : Text :=
  fmtStruct "LeAdvertisement" [("event_type", a.eventType.debug), ("address", a.address.debugIn),
    ("data", fmtList (fmtDec ·.toNat) a.data), ("rssi", fmtRssiIn a.rssi)]

/-- `#[derive(Debug)]` of the single flags of a `bitflag_array!`, `CommandFlag` and `ChannelFlag`:
bitflag_array.rs 76-80. -/
def BFlag.debug (name : String) (f : BFlag) : Text :=
  fmtStruct name [("octet", fmtDec f.octet), ("mask", fmtDec f.mask.toNat)]

/-- `#[derive(Debug)]` of `ChannelClassification`: lib.rs 822-823 with bitflag_array.rs 72. -/
def ChannelClassification.debug (f : ChannelClassification) : Text :=
  fmtTuple "ChannelClassification" [fmtList (fmtDec ·.toNat) f.arr.val]

/-- `#[derive(Debug)]` of `LinkType`: event/mod.rs 382-388. -/
def LinkType.debug : LinkType → Text
  | .sco => "Sco".toList
  | .acl => "Acl".toList

/-- `#[derive(Debug)]` of `Encryption`: event/mod.rs 508-517. -/
def Encryption.debug : Encryption → Text
  | .off => "Off".toList
  | .on => "On".toList
  | .onAesCcmForBrEdr => "OnAesCcmForBrEdr".toList

/-- `#[derive(Debug)]` of `ConnectionRole`: event/mod.rs 836-846. -/
def ConnectionRole.debug : ConnectionRole → Text
  | .central => "Central".toList
  | .peripheral => "Peripheral".toList

/-- `#[derive(Debug)]` of `CentralClockAccuracy`: event/mod.rs 861-880. -/
def CentralClockAccuracy.debug : CentralClockAccuracy → Text
  | .ppm500 => "Ppm500".toList
  | .ppm250 => "Ppm250".toList
  | .ppm150 => "Ppm150".toList
  | .ppm100 => "Ppm100".toList
  | .ppm75 => "Ppm75".toList
  | .ppm50 => "Ppm50".toList
  | .ppm30 => "Ppm30".toList
  | .ppm20 => "Ppm20".toList

/-- `#[derive(Debug)]` of `Phy`: event/mod.rs 1277-1285. -/
def Phy.debug : Phy → Text
  | .le1M => "Le1M".toList
  | .le2M => "Le2M".toList
  | .leCoded => "LeCoded".toList

/-- `#[derive(Debug)]` of `FixedConnectionInterval`: types/connection_interval.rs 285-290. -/
def FixedConnectionInterval.debug (i : FixedConnectionInterval) : Text :=
  fmtStruct "FixedConnectionInterval" [("interval_", i.interval.debug), ("conn_latency_", fmtDec i.connLatency.toNat),
    ("supervision_timeout_", i.supervisionTimeout.debug)]

/-- `#[derive(Debug)]` of `ConnectionComplete`: event/mod.rs 366-379. -/
def ConnectionComplete.debug {VS : Type} (vs : VS → Text) (e : ConnectionComplete VS) : Text :=
  fmtStruct "ConnectionComplete" [("status", e.status.debug vs), ("conn_handle", e.connHandle.debug),
    ("bd_addr", e.bdAddr.debugIn), ("link_type", e.linkType.debug), ("encryption_enabled", fmtBool e.encryptionEnabled)]

/-- `#[derive(Debug)]` of `DisconnectionComplete`: event/mod.rs 443-458. -/
def DisconnectionComplete.debug {VS : Type} (vs : VS → Text) (e : DisconnectionComplete VS) : Text :=
  fmtStruct "DisconnectionComplete" [("status", e.status.debug vs), ("conn_handle", e.connHandle.debug),
    ("reason", e.reason.debug vs)]

/-- `#[derive(Debug)]` of `EncryptionChange`: event/mod.rs 481-496. -/
def EncryptionChange.debug {VS : Type} (vs : VS → Text) (e : EncryptionChange VS) : Text :=
  fmtStruct "EncryptionChange" [("status", e.status.debug vs), ("conn_handle", e.connHandle.debug),
    ("encryption", e.encryption.debug)]

/-- `#[derive(Debug)]` of `RemoteVersionInformation`: event/mod.rs 549-586. -/
def RemoteVersionInformation.debug {VS : Type} (vs : VS → Text) (e : RemoteVersionInformation VS) : Text :=
  fmtStruct "RemoteVersionInformation" [("status", e.status.debug vs), ("conn_handle", e.connHandle.debug),
    ("version", fmtDec e.version.toNat), ("mfgr_name", fmtDec e.mfgrName.toNat),
    ("subversion", fmtDec e.subversion.toNat)]

/-- `#[derive(Debug)]` of `CommandStatus`: event/mod.rs 607-619. -/
def CommandStatus.debug {VS : Type} (vs : VS → Text) (e : CommandStatus VS) : Text :=
  fmtStruct "CommandStatus" [("status", e.status.debug vs),
    ("num_hci_command_packets", fmtDec e.numHciCommandPackets.toNat), ("opcode", e.opcode.debug)]

/-- `#[derive(Debug)]` of `HardwareError`: event/mod.rs 638-643. -/
def HardwareError.debug (e : HardwareError) : Text :=
  fmtStruct "HardwareError" [("code", fmtDec e.code.toNat)]

/-- `#[derive(Debug)]` of `DataBufferOverflow`: event/mod.rs 748-752. -/
def DataBufferOverflow.debug (e : DataBufferOverflow) : Text :=
  fmtStruct "DataBufferOverflow" [("link_type", e.linkType.debug)]

/-- `#[derive(Debug)]` of `EncryptionKeyRefreshComplete`: event/mod.rs 780-786. -/
def EncryptionKeyRefreshComplete.debug {VS : Type} (vs : VS → Text) (e : EncryptionKeyRefreshComplete VS) : Text :=
  fmtStruct "EncryptionKeyRefreshComplete" [("status", e.status.debug vs), ("conn_handle", e.connHandle.debug)]

/-- `#[derive(Debug)]` of `LeConnectionComplete`: event/mod.rs 812-833. -/
def LeConnectionComplete.debug {VS : Type} (vs : VS → Text) (e : LeConnectionComplete VS) : Text :=
  fmtStruct "LeConnectionComplete" [("status", e.status.debug vs), ("conn_handle", e.connHandle.debug),
    ("role", e.role.debug), ("peer_bd_addr", e.peerBdAddr.debugIn), ("conn_interval", e.connInterval.debug),
    ("central_clock_accuracy", e.centralClockAccuracy.debug)]

/-- `#[derive(Debug)]` of `LeConnectionUpdateComplete`: event/mod.rs 1144-1155. -/
def LeConnectionUpdateComplete.debug {VS : Type} (vs : VS → Text) (e : LeConnectionUpdateComplete VS) : Text :=
  fmtStruct "LeConnectionUpdateComplete" [("status", e.status.debug vs), ("conn_handle", e.connHandle.debug),
    ("conn_interval", e.connInterval.debug)]

/-- `#[derive(Debug)]` of `LeReadRemoteUsedFeaturesComplete`: event/mod.rs 1181-1189. -/
def LeReadRemoteUsedFeaturesComplete.debug {VS : Type} (c : Cfg) (vs : VS → Text)
    (e : LeReadRemoteUsedFeaturesComplete VS) : Text :=
  fmtStruct "LeReadRemoteUsedFeaturesComplete" [("status", e.status.debug vs), ("conn_handle", e.connHandle.debug),
    ("features", fmtFlags c linkLayerFeature e.features)]

/-- `#[derive(Debug)]` of `LeLongTermKeyRequest`: event/mod.rs 1213-1221. -/
def LeLongTermKeyRequest.debug (e : LeLongTermKeyRequest) : Text :=
  fmtStruct "LeLongTermKeyRequest" [("conn_handle", e.connHandle.debug), ("random_value", fmtDec e.randomValue.toNat),
    ("encrypted_diversifier", fmtDec e.encryptedDiversifier.toNat)]

/-- `#[derive(Debug)]` of `LeDataLengthChangeEvent`: event/mod.rs 1240-1256. -/
def LeDataLengthChangeEvent.debug (e : LeDataLengthChangeEvent) : Text :=
  fmtStruct "LeDataLengthChangeEvent" [("conn_handle", e.connHandle.debug),
    ("max_tx_octets", fmtDec e.maxTxOctets.toNat), ("max_tx_time", fmtDec e.maxTxTime.toNat),
    ("max_rx_octets", fmtDec e.maxRxOctets.toNat), ("max_rx_time", fmtDec e.maxRxTime.toNat)]

/-- `#[derive(Debug)]` of `LePhyUpdateComplete`: event/mod.rs 1307-1317. -/
def LePhyUpdateComplete.debug {VS : Type} (vs : VS → Text) (e : LePhyUpdateComplete VS) : Text :=
  fmtStruct "LePhyUpdateComplete" [("conn_handle", e.connHandle.debug), ("status", e.status.debug vs),
    ("tx_phy", e.txPhy.debug), ("rx_phy", e.rxPhy.debug)]

/-- `#[derive(Debug)]` of `TxPowerLevel`: event/command.rs 334-346. -/
def TxPowerLevelRet.debug {VS : Type} (vs : VS → Text) (e : TxPowerLevelRet VS) : Text :=
  fmtStruct "TxPowerLevel" [("status", e.status.debug vs), ("conn_handle", e.connHandle.debug),
    ("tx_power_level_dbm", fmtInt8 e.txPowerLevelDbm)]

/-- `#[derive(Debug)]` of `LocalVersionInfo`: event/command.rs 362-393. -/
def LocalVersionInfo.debug {VS : Type} (vs : VS → Text) (e : LocalVersionInfo VS) : Text :=
  fmtStruct "LocalVersionInfo" [("status", e.status.debug vs), ("hci_version", fmtDec e.hciVersion.toNat),
    ("hci_revision", fmtDec e.hciRevision.toNat), ("lmp_version", fmtDec e.lmpVersion.toNat),
    ("manufacturer_name", fmtDec e.manufacturerName.toNat), ("lmp_subversion", fmtDec e.lmpSubversion.toNat)]

/-- `#[derive(Debug)]` of `LocalSupportedCommands`: event/command.rs 415-422. -/
def LocalSupportedCommands.debug {ε VS : Type} (vs : VS → Text) (e : LocalSupportedCommands VS) : Res ε Text := do
  .ok (fmtStruct "LocalSupportedCommands" [("status", e.status.debug vs),
    ("supported_commands", (← CommandFlags.debug e.supportedCommands))])

/-- `#[derive(Debug)]` of `LocalSupportedFeatures`: event/command.rs 1080-1087. -/
def LocalSupportedFeatures.debug {VS : Type} (c : Cfg) (vs : VS → Text) (e : LocalSupportedFeatures VS) : Text :=
  fmtStruct "LocalSupportedFeatures" [("status", e.status.debug vs),
    ("supported_features", fmtFlags c lmpFeatures e.supportedFeatures)]

/-- `#[derive(Debug)]` of `ReadBdAddr`: event/command.rs 1219-1226. -/
def ReadBdAddr.debug {VS : Type} (vs : VS → Text) (e : ReadBdAddr VS) : Text :=
  fmtStruct "ReadBdAddr" [("status", e.status.debug vs), ("bd_addr", e.bdAddr.debugIn)]

/-- `#[derive(Debug)]` of `ReadRssi`: event/command.rs 1242-1264. -/
def ReadRssi.debug {VS : Type} (vs : VS → Text) (e : ReadRssi VS) : Text :=
  fmtStruct "ReadRssi" [("status", e.status.debug vs), ("conn_handle", e.connHandle.debug), ("rssi", fmtInt8 e.rssi)]

/-- `#[derive(Debug)]` of `LeReadBufferSize`: event/command.rs 1279-1302. -/
def LeReadBufferSize.debug {VS : Type} (vs : VS → Text) (e : LeReadBufferSize VS) : Text :=
  fmtStruct "LeReadBufferSize" [("status", e.status.debug vs),
    ("data_packet_length", fmtDec e.dataPacketLength.toNat), ("data_packet_count", fmtDec e.dataPacketCount.toNat)]

/-- `#[derive(Debug)]` of `LeSupportedFeatures`: event/command.rs 1320-1327. -/
def LeSupportedFeatures.debug {VS : Type} (c : Cfg) (vs : VS → Text) (e : LeSupportedFeatures VS) : Text :=
  fmtStruct "LeSupportedFeatures" [("status", e.status.debug vs),
    ("supported_features", fmtFlags c leFeatures e.supportedFeatures)]

/-- `#[derive(Debug)]` of `LeAdvertisingChannelTxPower`: event/command.rs 1399-1408. -/
def LeAdvertisingChannelTxPower.debug {VS : Type} (vs : VS → Text) (e : LeAdvertisingChannelTxPower VS) : Text :=
  fmtStruct "LeAdvertisingChannelTxPower" [("status", e.status.debug vs), ("power", fmtInt8 e.power)]

/-- `#[derive(Debug)]` of `ChannelMapParameters`: event/command.rs 1440-1450. -/
def ChannelMapParameters.debug {VS : Type} (vs : VS → Text) (e : ChannelMapParameters VS) : Text :=
  fmtStruct "ChannelMapParameters" [("status", e.status.debug vs), ("conn_handle", e.connHandle.debug),
    ("channel_map", ChannelClassification.debug e.channelMap)]

/-- `#[derive(Debug)]` of `EncryptedReturnParameters`: event/command.rs 1472-1482. -/
def EncryptedReturnParameters.debug {VS : Type} (vs : VS → Text) (e : EncryptedReturnParameters VS) : Text :=
  fmtStruct "EncryptedReturnParameters" [("status", e.status.debug vs),
    ("encrypted_data", encryptedBlockDebug e.encryptedData)]

/-- `#[derive(Debug)]` of `LeRandom`: event/command.rs 1513-1520. -/
def LeRandom.debug {VS : Type} (vs : VS → Text) (e : LeRandom VS) : Text :=
  fmtStruct "LeRandom" [("status", e.status.debug vs), ("random_number", fmtDec e.randomNumber.toNat)]

/-- `#[derive(Debug)]` of `LeLongTermRequestReply`: event/command.rs 1536-1543. -/
def LeLongTermRequestReply.debug {VS : Type} (vs : VS → Text) (e : LeLongTermRequestReply VS) : Text :=
  fmtStruct "LeLongTermRequestReply" [("status", e.status.debug vs), ("conn_handle", e.connHandle.debug)]

/-- `#[derive(Debug)]` of `LeReadSupportedStates`: event/command.rs 1561-1569. -/
def LeReadSupportedStates.debug {VS : Type} (c : Cfg) (vs : VS → Text) (e : LeReadSupportedStates VS) : Text :=
  fmtStruct "LeReadSupportedStates" [("status", e.status.debug vs),
    ("supported_states", fmtFlags c leStates e.supportedStates)]

/-- `#[derive(Debug)]` of `LeTestEnd`: event/command.rs 1679-1687. -/
def LeTestEnd.debug {VS : Type} (vs : VS → Text) (e : LeTestEnd VS) : Text :=
  fmtStruct "LeTestEnd" [("status", e.status.debug vs), ("number_of_packets", fmtDec e.numberOfPackets)]

/-- How a vendor prints its types: the `Debug` bounds of lib.rs 314-323 and event/mod.rs 126-133. -/
structure VendorDebug (V : Vendor) where
  status : V.VStatus → Text
  ret : V.VRet → Text
  event : V.VEvent → Text
  err : V.VErr → Text

/-- The variant names of `ReturnParameters`: event/command.rs 184-323. -/
def ReturnParameters.name {VS VR : Type} : ReturnParameters VS VR → String
  | .spontaneous => "Spontaneous"
  | .setEventMask _ => "SetEventMask"
  | .reset _ => "Reset"
  | .readTxPowerLevel _ => "ReadTxPowerLevel"
  | .readLocalVersionInformation _ => "ReadLocalVersionInformation"
  | .readLocalSupportedCommands _ => "ReadLocalSupportedCommands"
  | .readLocalSupportedFeatures _ => "ReadLocalSupportedFeatures"
  | .readBdAddr _ => "ReadBdAddr"
  | .readRssi _ => "ReadRssi"
  | .leSetEventMask _ => "LeSetEventMask"
  | .leReadBufferSize _ => "LeReadBufferSize"
  | .leReadLocalSupportedFeatures _ => "LeReadLocalSupportedFeatures"
  | .leSetRandomAddress _ => "LeSetRandomAddress"
  | .leSetAdvertisingParameters _ => "LeSetAdvertisingParameters"
  | .leReadAdvertisingChannelTxPower _ => "LeReadAdvertisingChannelTxPower"
  | .leSetAdvertisingData _ => "LeSetAdvertisingData"
  | .leSetScanResponseData _ => "LeSetScanResponseData"
  | .leSetAdvertiseEnable _ => "LeSetAdvertiseEnable"
  | .leSetAdvertisingEnable _ => "LeSetAdvertisingEnable"
  | .leSetScanParameters _ => "LeSetScanParameters"
  | .leSetScanEnable _ => "LeSetScanEnable"
  | .leCreateConnectionCancel _ => "LeCreateConnectionCancel"
  | .leReadWhiteListSize _ _ => "LeReadWhiteListSize"
  | .leClearWhiteList _ => "LeClearWhiteList"
  | .leAddDeviceToWhiteList _ => "LeAddDeviceToWhiteList"
  | .leRemoveDeviceFromWhiteList _ => "LeRemoveDeviceFromWhiteList"
  | .leSetHostChannelClassification _ => "LeSetHostChannelClassification"
  | .leReadChannelMap _ => "LeReadChannelMap"
  | .leEncrypt _ => "LeEncrypt"
  | .leRand _ => "LeRand"
  | .leLongTermKeyRequestReply _ => "LeLongTermKeyRequestReply"
  | .leLongTermKeyRequestNegativeReply _ => "LeLongTermKeyRequestNegativeReply"
  | .leReadSupportedStates _ => "LeReadSupportedStates"
  | .leReceiverTest _ => "LeReceiverTest"
  | .leTransmitterTest _ => "LeTransmitterTest"
  | .leTestEnd _ => "LeTestEnd"
  | .vendor _ => "Vendor"

/-- The fields of a variant of `ReturnParameters`: event/command.rs 184-323. -/
def ReturnParameters.fields {ε VS VR : Type} (c : Cfg) (vs : VS → Text) (vr : VR → Text) :
    ReturnParameters VS VR → Res ε (List Text)
  | .spontaneous => .ok []
  | .setEventMask s => .ok [s.debug vs]
  | .reset s => .ok [s.debug vs]
  | .readTxPowerLevel p => .ok [p.debug vs]
  | .readLocalVersionInformation p => .ok [p.debug vs]
  | .readLocalSupportedCommands p => do .ok [← p.debug vs]
  | .readLocalSupportedFeatures p => .ok [p.debug c vs]
  | .readBdAddr p => .ok [p.debug vs]
  | .readRssi p => .ok [p.debug vs]
  | .leSetEventMask s => .ok [s.debug vs]
  | .leReadBufferSize p => .ok [p.debug vs]
  | .leReadLocalSupportedFeatures p => .ok [p.debug c vs]
  | .leSetRandomAddress s => .ok [s.debug vs]
  | .leSetAdvertisingParameters s => .ok [s.debug vs]
  | .leReadAdvertisingChannelTxPower p => .ok [p.debug vs]
  | .leSetAdvertisingData s => .ok [s.debug vs]
  | .leSetScanResponseData s => .ok [s.debug vs]
  | .leSetAdvertiseEnable s => .ok [s.debug vs]
  | .leSetAdvertisingEnable s => .ok [s.debug vs]
  | .leSetScanParameters s => .ok [s.debug vs]
  | .leSetScanEnable s => .ok [s.debug vs]
  | .leCreateConnectionCancel s => .ok [s.debug vs]
  | .leReadWhiteListSize s n => .ok [s.debug vs, fmtDec n]
  | .leClearWhiteList s => .ok [s.debug vs]
  | .leAddDeviceToWhiteList s => .ok [s.debug vs]
  | .leRemoveDeviceFromWhiteList s => .ok [s.debug vs]
  | .leSetHostChannelClassification s => .ok [s.debug vs]
  | .leReadChannelMap p => .ok [p.debug vs]
  | .leEncrypt p => .ok [p.debug vs]
  | .leRand p => .ok [p.debug vs]
  | .leLongTermKeyRequestReply p => .ok [p.debug vs]
  | .leLongTermKeyRequestNegativeReply p => .ok [p.debug vs]
  | .leReadSupportedStates p => .ok [p.debug c vs]
  | .leReceiverTest s => .ok [s.debug vs]
  | .leTransmitterTest s => .ok [s.debug vs]
  | .leTestEnd p => .ok [p.debug vs]
  | .vendor r => .ok [vr r]

/-- `#[derive(Debug)]` of `ReturnParameters`: event/command.rs 183-323. -/
def ReturnParameters.debug {ε VS VR : Type} (c : Cfg) (vs : VS → Text) (vr : VR → Text)
    (r : ReturnParameters VS VR) : Res ε Text := do
  .ok (fmtVariant r.name (← r.fields c vs vr))

/-- `#[derive(Debug)]` of `CommandComplete`: event/command.rs 26-44. -/
def CommandComplete.debug {ε VS VR : Type} (c : Cfg) (vs : VS → Text) (vr : VR → Text)
    (e : CommandComplete VS VR) : Res ε Text := do
  .ok (fmtStruct "CommandComplete" [("num_hci_command_packets", fmtDec e.numHciCommandPackets.toNat),
    ("return_params", ← e.returnParams.debug c vs vr)])

/-- The variant names of `Event`: event/mod.rs 64-121. -/
def Event.name {VS VR VEv : Type} : Event VS VR VEv → String
  | .connectionComplete _ => "ConnectionComplete"
  | .disconnectionComplete _ => "DisconnectionComplete"
  | .encryptionChange _ => "EncryptionChange"
  | .readRemoteVersionInformationComplete _ => "ReadRemoteVersionInformationComplete"
  | .commandComplete _ => "CommandComplete"
  | .commandStatus _ => "CommandStatus"
  | .hardwareError _ => "HardwareError"
  | .numberOfCompletedPackets _ => "NumberOfCompletedPackets"
  | .dataBufferOverflow _ => "DataBufferOverflow"
  | .encryptionKeyRefreshComplete _ => "EncryptionKeyRefreshComplete"
  | .leConnectionComplete _ => "LeConnectionComplete"
  | .leAdvertisingReport _ => "LeAdvertisingReport"
  | .leConnectionUpdateComplete _ => "LeConnectionUpdateComplete"
  | .leReadRemoteUsedFeaturesComplete _ => "LeReadRemoteUsedFeaturesComplete"
  | .leLongTermKeyRequest _ => "LeLongTermKeyRequest"
  | .leDataLengthChangeEvent _ => "LeDataLengthChangeEvent"
  | .lePhyUpdateComplete _ => "LePhyUpdateComplete"
  | .vendor _ => "Vendor"

/-- The field of a variant of `Event`: event/mod.rs 64-121. -/
def Event.field {ε : Type} (c : Cfg) (V : Vendor) (D : VendorDebug V) : V.Ev → Res ε Text
  | .connectionComplete e => .ok (e.debug D.status)
  | .disconnectionComplete e => .ok (e.debug D.status)
  | .encryptionChange e => .ok (e.debug D.status)
  | .readRemoteVersionInformationComplete e => .ok (e.debug D.status)
  | .commandComplete e => e.debug c D.status D.ret
  | .commandStatus e => .ok (e.debug D.status)
  | .hardwareError e => .ok (e.debug)
  | .numberOfCompletedPackets e => e.debug
  | .dataBufferOverflow e => .ok (e.debug)
  | .encryptionKeyRefreshComplete e => .ok (e.debug D.status)
  | .leConnectionComplete e => .ok (e.debug D.status)
  | .leAdvertisingReport e => e.debug LeAdvertisement.debug
  | .leConnectionUpdateComplete e => .ok (e.debug D.status)
  | .leReadRemoteUsedFeaturesComplete e => .ok (e.debug c D.status)
  | .leLongTermKeyRequest e => .ok (e.debug)
  | .leDataLengthChangeEvent e => .ok (e.debug)
  | .lePhyUpdateComplete e => .ok (e.debug D.status)
  | .vendor e => .ok (D.event e)

/-- `#[derive(Debug)]` of `Event`: event/mod.rs 63-121. -/
def Event.debug {ε : Type} (c : Cfg) (V : Vendor) (D : VendorDebug V) (e : V.Ev) : Res ε Text := do
  .ok (fmtVariant e.name [← e.field c V D])

/-- The variant names of `ConnectionIntervalError`: types/connection_interval.rs 257-281. -/
def ConnectionIntervalError.name : ConnectionIntervalError → String
  | .incomplete => "Incomplete"
  | .intervalTooShort _ => "IntervalTooShort"
  | .intervalTooLong _ => "IntervalTooLong"
  | .intervalInverted _ _ => "IntervalInverted"
  | .badConnectionLatency _ => "BadConnectionLatency"
  | .supervisionTimeoutTooShort _ _ => "SupervisionTimeoutTooShort"
  | .supervisionTimeoutTooLong _ => "SupervisionTimeoutTooLong"
  | .impossibleSupervisionTimeout _ => "ImpossibleSupervisionTimeout"

/-- The fields of a variant of `ConnectionIntervalError`: types/connection_interval.rs 257-281. -/
def ConnectionIntervalError.fields : ConnectionIntervalError → List Text
  | .incomplete => []
  | .intervalTooShort a => [a.debug]
  | .intervalTooLong a => [a.debug]
  | .intervalInverted a b => [a.debug, b.debug]
  | .badConnectionLatency a => [fmtDec a.toNat]
  | .supervisionTimeoutTooShort a b => [a.debug, b.debug]
  | .supervisionTimeoutTooLong a => [a.debug]
  | .impossibleSupervisionTimeout a => [a.debug]

/-- `#[derive(Debug)]` of `ConnectionIntervalError`: types/connection_interval.rs 256-281. -/
def ConnectionIntervalError.debug (e : ConnectionIntervalError) : Text := fmtVariant e.name e.fields

/-- The variant names of `event::Error`: event/mod.rs 165-250. -/
def EvError.name {VE : Type} : EvError VE → String
  | .unknownEvent _ => "UnknownEvent"
  | .badLength _ _ => "BadLength"
  | .badStatus _ => "BadStatus"
  | .badLinkType _ => "BadLinkType"
  | .badEncryptionEnabledValue _ => "BadEncryptionEnabledValue"
  | .badReason _ => "BadReason"
  | .badEncryptionType _ => "BadEncryptionType"
  | .unknownOpcode _ => "UnknownOpcode"
  | .badCommandFlag => "BadCommandFlag"
  | .invalidChannelMap _ => "InvalidChannelMap"
  | .invalidLeStates _ => "InvalidLeStates"
  | .badLeConnectionRole _ => "BadLeConnectionRole"
  | .badLeAddressType _ => "BadLeAddressType"
  | .badConnectionInterval _ => "BadConnectionInterval"
  | .badLeCentralClockAccuracy _ => "BadLeCentralClockAccuracy"
  | .leAdvertisementReportIncomplete => "LeAdvertisementReportIncomplete"
  | .badLeAdvertisementType _ => "BadLeAdvertisementType"
  | .badRemoteUsedFeatureFlag _ => "BadRemoteUsedFeatureFlag"
  | .badPhy _ => "BadPhy"
  | .vendor _ => "Vendor"

/-- The fields of a variant of `event::Error`: event/mod.rs 165-250. -/
def EvError.fields {VE : Type} (ve : VE → Text) : EvError VE → List Text
  | .unknownEvent a => [fmtDec a.toNat]
  | .badLength a b => [fmtDec a, fmtDec b]
  | .badStatus a => [fmtDec a.toNat]
  | .badLinkType a => [fmtDec a.toNat]
  | .badEncryptionEnabledValue a => [fmtDec a.toNat]
  | .badReason a => [fmtDec a.toNat]
  | .badEncryptionType a => [fmtDec a.toNat]
  | .unknownOpcode a => [a.debug]
  | .badCommandFlag => []
  | .invalidChannelMap a => [fmtList (fmtDec ·.toNat) a.val]
  | .invalidLeStates a => [fmtDec a.toNat]
  | .badLeConnectionRole a => [fmtDec a.toNat]
  | .badLeAddressType a => [fmtDec a.toNat]
  | .badConnectionInterval a => [a.debug]
  | .badLeCentralClockAccuracy a => [fmtDec a.toNat]
  | .leAdvertisementReportIncomplete => []
  | .badLeAdvertisementType a => [fmtDec a.toNat]
  | .badRemoteUsedFeatureFlag a => [fmtDec a.toNat]
  | .badPhy a => [fmtDec a.toNat]
  | .vendor a => [ve a]

/-- `#[derive(Debug)]` of `event::Error`: event/mod.rs 164-250. -/
def EvError.debug {VE : Type} (ve : VE → Text) (e : EvError VE) : Text := fmtVariant e.name (e.fields ve)

/-- `#[derive(Debug)]` of `uart::Error`: host/uart.rs 15-24. -/
def UartError.debug {E VE : Type} (ee : E → Text) (ve : VE → Text) : UartError E VE → Text
  | .badPacketType b => fmtVariant "BadPacketType" [fmtDec b.toNat]
  | .ble e => fmtVariant "BLE" [e.debug ve]
  | .comm e => fmtVariant "Comm" [ee e]

/-- `#[derive(Debug)]` of `event_link::Error`: host/event_link.rs 15-21. -/
def EventLinkError.debug {E VE : Type} (ee : E → Text) (ve : VE → Text) : EventLinkError E VE → Text
  | .ble e => fmtVariant "BLE" [e.debug ve]
  | .comm e => fmtVariant "Comm" [ee e]

/-- `#[derive(Debug)]` of `uart::Packet`: host/uart.rs 27-37. -/
def UartPacket.debug {ε : Type} (c : Cfg) (V : Vendor) (D : VendorDebug V) : UartPacket V → Res ε Text
  | .event e => do .ok (fmtVariant "Event" [← e.debug c V D])

/-- `Debug` of `nb::Error` (crate `nb` 0.1.2): not derived, an error of the other kind prints as itself. -/
def Nb.debug {E : Type} (ee : E → Text) : Nb E → Text
  | .wouldBlock => fmtVariant "WouldBlock" []
  | .other e => ee e

/-- `{:?}` of what `uart::Hci::read` returned (`core` for `Result`); a call that panicked returned nothing. -/
def Uart.debugResult {E ε : Type} (c : Cfg) (V : Vendor) (D : VendorDebug V) (ee : E → Text) :
    Res (Nb (UartError E V.VErr)) (UartPacket V) → Res ε Text
  | .ok p => do .ok (fmtVariant "Ok" [← p.debug c V D])
  | .err e => .ok (fmtVariant "Err" [e.debug (UartError.debug ee D.err)])
  | .panic => .panic

/-- `{:?}` of what `event_link::Hci::read` returned. -/
def EventLink.debugResult {E ε : Type} (c : Cfg) (V : Vendor) (D : VendorDebug V) (ee : E → Text) :
    Res (Nb (EventLinkError E V.VErr)) V.Ev → Res ε Text
  | .ok e => do .ok (fmtVariant "Ok" [← e.debug c V D])
  | .err e => .ok (fmtVariant "Err" [e.debug (EventLinkError.debug ee D.err)])
  | .panic => .panic

end Bt
