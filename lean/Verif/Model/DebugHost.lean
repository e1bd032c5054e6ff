import Verif.Model.DebugEvent
import Verif.Model.Host.Commands
import Verif.Model.Types.CommonDataType

/-! # Model of the derived `Debug` implementations of the parameters and errors of commands

As in `DebugEvent.lean`; a pair is printed as a tuple without name. -/

namespace Bt

variable [Style]

/-- `{:?}` of a pair of durations (`core::fmt`). -/
def fmtRange (a b : Duration) : Text := fmtTuple "" [a.debug, b.debug]

/-- `#[derive(Debug)]` of `AdvertisingType`: types/advertising_interval.rs 166-178. -/
def AdvertisingType.debug : AdvertisingType → Text
  | .connectableUndirected => "ConnectableUndirected".toList
  | .connectableDirectedHighDutyCycle => "ConnectableDirectedHighDutyCycle".toList
  | .scannableUndirected => "ScannableUndirected".toList
  | .nonConnectableUndirected => "NonConnectableUndirected".toList
  | .connectableDirectedLowDutyCycle => "ConnectableDirectedLowDutyCycle".toList

/-- `#[derive(Debug)]` of `OwnAddressType`: host/mod.rs 1809-1824. -/
def OwnAddressType.debug : OwnAddressType → Text
  | .pub => "Public".toList
  | .random => "Random".toList
  | .privateFallbackPublic => "PrivateFallbackPublic".toList
  | .privateFallbackRandom => "PrivateFallbackRandom".toList

/-- `#[derive(Debug)]` of `AdvertisingFilterPolicy`: host/mod.rs 1848-1861. -/
def AdvertisingFilterPolicy.debug : AdvertisingFilterPolicy → Text
  | .allowConnectionAndScan => "AllowConnectionAndScan".toList
  | .allowConnectionWhiteListScan => "AllowConnectionWhiteListScan".toList
  | .whiteListConnectionAllowScan => "WhiteListConnectionAllowScan".toList
  | .whiteListConnectionAndScan => "WhiteListConnectionAndScan".toList

/-- `#[derive(Debug)]` of `ScanType`: host/mod.rs 1894-1901. -/
def ScanType.debug : ScanType → Text
  | .passive => "Passive".toList
  | .active => "Active".toList

/-- `#[derive(Debug)]` of `ScanFilterPolicy`: host/mod.rs 1906-1931. -/
def ScanFilterPolicy.debug : ScanFilterPolicy → Text
  | .acceptAll => "AcceptAll".toList
  | .whiteList => "WhiteList".toList
  | .addressedToThisDevice => "AddressedToThisDevice".toList
  | .whiteListAddressedToThisDevice => "WhiteListAddressedToThisDevice".toList

/-- `#[derive(Debug)]` of `ConnectionFilterPolicy`: host/mod.rs 2002-2012. -/
def ConnectionFilterPolicy.debug : ConnectionFilterPolicy → Text
  | .useAddress => "UseAddress".toList
  | .whiteList => "WhiteList".toList

/-- `#[derive(Debug)]` of `TxPowerLevel`: host/mod.rs 1657-1663. -/
def TxPowerLevel.debug : TxPowerLevel → Text
  | .current => "Current".toList
  | .maximum => "Maximum".toList

/-- `#[derive(Debug)]` of `TestPacketPayload`: host/mod.rs 2167-2186. -/
def TestPacketPayload.debug : TestPacketPayload → Text
  | .prbS9 => "PrbS9".toList
  | .nibbles10 => "Nibbles10".toList
  | .bits10 => "Bits10".toList
  | .prbS15 => "PrbS15".toList
  | .all1 => "All1".toList
  | .all0 => "All0".toList
  | .nibbles01 => "Nibbles01".toList
  | .bits01 => "Bits01".toList

/-- `#[derive(Debug)]` of `CommonDataType`: types/common.rs 8-104. -/
def CommonDataType.debug : CommonDataType → Text
  | .flags => "Flags".toList
  | .incompleteListOf16BitServiceClassUuids => "IncompleteListOf16BitServiceClassUuids".toList
  | .completeListOf16BitServiceClassUuids => "CompleteListOf16BitServiceClassUuids".toList
  | .incompleteListOf32BitServiceClassUuids => "IncompleteListOf32BitServiceClassUuids".toList
  | .completeListOf32BitServiceClassUuids => "CompleteListOf32BitServiceClassUuids".toList
  | .incompleteListOf128BitServiceClassUuids => "IncompleteListOf128BitServiceClassUuids".toList
  | .completeListOf128BitServiceClassUuids => "CompleteListOf128BitServiceClassUuids".toList
  | .shortenedLocalName => "ShortenedLocalName".toList
  | .completeLocalName => "CompleteLocalName".toList
  | .txPowerLevel => "TxPowerLevel".toList
  | .classOfDevice => "ClassOfDevice".toList
  | .simplePairingHashC192 => "SimplePairingHashC192".toList
  | .simplePairingRandomizerR192 => "SimplePairingRandomizerR192".toList
  | .deviceId => "DeviceId".toList
  | .securityManagerTkValue => "SecurityManagerTkValue".toList
  | .peripheralConnectionIntervalRange => "PeripheralConnectionIntervalRange".toList
  | .listOf16BitServiceSolicitationUuids => "ListOf16BitServiceSolicitationUuids".toList
  | .listOf128BitServiceSolicitationUuids => "ListOf128BitServiceSolicitationUuids".toList
  | .serviceData16BitUuid => "ServiceData16BitUuid".toList
  | .publicTargetAddress => "PublicTargetAddress".toList
  | .randomTargetAddress => "RandomTargetAddress".toList
  | .appearance => "Appearance".toList
  | .advertisingInterval => "AdvertisingInterval".toList
  | .leBluetoothDeviceAddress => "LeBluetoothDeviceAddress".toList
  | .leRole => "LeRole".toList
  | .simplePairingHashC256 => "SimplePairingHashC256".toList
  | .simplePairingRandomizerR256 => "SimplePairingRandomizerR256".toList
  | .listOf32BitServiceSolicitationUuids => "ListOf32BitServiceSolicitationUuids".toList
  | .serviceData32BitUuid => "ServiceData32BitUuid".toList
  | .serviceData128BitUuid => "ServiceData128BitUuid".toList
  | .leSecureConnectionsConfirmationValue => "LeSecureConnectionsConfirmationValue".toList
  | .leSecureConnectionsRandomValue => "LeSecureConnectionsRandomValue".toList
  | .uri => "Uri".toList
  | .indoorPositioning => "IndoorPositioning".toList
  | .transportDiscoveryData => "TransportDiscoveryData".toList
  | .leSupportedFeatures => "LeSupportedFeatures".toList
  | .channelMapUpdateIndication => "ChannelMapUpdateIndication".toList
  | .pbAdv => "PbAdv".toList
  | .meshMessage => "MeshMessage".toList
  | .meshBeacon => "MeshBeacon".toList
  | .bigInfo => "BigInfo".toList
  | .broadcastCode => "BroadcastCode".toList
  | .resolvableSetIdentifier => "ResolvableSetIdentifier".toList
  | .advertisingIntervalLong => "AdvertisingIntervalLong".toList
  | .broadcastName => "BroadcastName".toList
  | .threeDInformationData => "ThreeDInformationData".toList
  | .manufacturerSpecificData => "ManufacturerSpecificData".toList

/-- `#[derive(Debug)]` of `PeerAddrType`: host/mod.rs 2016-2032. -/
def PeerAddrType.debug : PeerAddrType → Text
  | .publicDeviceAddress a => fmtVariant "PublicDeviceAddress" [a.debugIn]
  | .randomDeviceAddress a => fmtVariant "RandomDeviceAddress" [a.debugIn]
  | .publicIdentityAddress a => fmtVariant "PublicIdentityAddress" [a.debugIn]
  | .randomIdentityAddress a => fmtVariant "RandomIdentityAddress" [a.debugIn]

/-- `#[derive(Debug)]` of `AdvertisingInterval`: types/advertising_interval.rs 21-26. -/
def AdvertisingInterval.debug (p : AdvertisingInterval) : Text :=
  fmtStruct "AdvertisingInterval" [("interval", fmtRange p.min p.max),
    ("_advertising_type", p.advertisingType.debug)]

/-- `#[derive(Debug)]` of `ScanWindow`: types/scan_window.rs 13-17. -/
def ScanWindow.debug (p : ScanWindow) : Text :=
  fmtStruct "ScanWindow" [("interval_width", p.intervalWidth.debug),
    ("window_width", p.windowWidth.debug)]

/-- `#[derive(Debug)]` of `ConnectionInterval`: types/connection_interval.rs 10-15. -/
def ConnectionInterval.debug (p : ConnectionInterval) : Text :=
  fmtStruct "ConnectionInterval" [("interval_", fmtRange p.intervalMin p.intervalMax),
    ("conn_latency_", fmtDec p.connLatency.toNat),
    ("supervision_timeout_", p.supervisionTimeout.debug)]

/-- `#[derive(Debug)]` of `ExpectedConnectionLength`: types/expected_connection_length.rs 10-13. -/
def ExpectedConnectionLength.debug (p : ExpectedConnectionLength) : Text :=
  fmtStruct "ExpectedConnectionLength" [("range", fmtRange p.min p.max)]

/-- `#[derive(Debug)]` of `AdvertisingParameters`: host/mod.rs 1756-1787. -/
def AdvertisingParameters.debug (c : Cfg) (p : AdvertisingParameters) : Text :=
  fmtStruct "AdvertisingParameters" [("advertising_interval", p.advertisingInterval.debug),
    ("own_address_type", p.ownAddressType.debug),
    ("peer_address", p.peerAddress.debugIn),
    ("advertising_channel_map", fmtFlags c channels p.advertisingChannelMap.toUInt64),
    ("advertising_filter_policy", p.advertisingFilterPolicy.debug)]

/-- `#[derive(Debug)]` of `ScanParameters`: host/mod.rs 1864-1878. -/
def ScanParameters.debug (p : ScanParameters) : Text :=
  fmtStruct "ScanParameters" [("scan_type", p.scanType.debug),
    ("scan_window", p.scanWindow.debug),
    ("own_address_type", p.ownAddressType.debug),
    ("filter_policy", p.filterPolicy.debug)]

/-- `#[derive(Debug)]` of `ConnectionParameters`: host/mod.rs 1934-1977. -/
def ConnectionParameters.debug (p : ConnectionParameters) : Text :=
  fmtStruct "ConnectionParameters" [("scan_window", p.scanWindow.debug),
    ("initiator_filter_policy", p.initiatorFilterPolicy.debug),
    ("peer_address", p.peerAddress.debug),
    ("own_address_type", p.ownAddressType.debug),
    ("conn_interval", p.connInterval.debug),
    ("expected_connection_length", p.expectedConnectionLength.debug)]

/-- `#[derive(Debug)]` of `AdvertisingIntervalError`: types/advertising_interval.rs 148-160. -/
def AdvertisingIntervalError.debug : AdvertisingIntervalError → Text
  | .tooShort d => fmtVariant "TooShort" [d.debug]
  | .tooLong d => fmtVariant "TooLong" [d.debug]
  | .inverted a b => fmtVariant "Inverted" [a.debug, b.debug]
  | .noRange => fmtVariant "NoRange" []

/-- `#[derive(Debug)]` of `ScanWindowError`: types/scan_window.rs 113-128. -/
def ScanWindowError.debug : ScanWindowError → Text
  | .tooShort d => fmtVariant "TooShort" [d.debug]
  | .tooLong d => fmtVariant "TooLong" [d.debug]
  | .inverted a b => fmtStruct "Inverted" [("interval", a.debug), ("window", b.debug)]

/-- `#[derive(Debug)]` of `ExpectedConnectionLengthError`: types/expected_connection_length.rs 63-70. -/
def ExpectedConnectionLengthError.debug : ExpectedConnectionLengthError → Text
  | .tooLong d => fmtVariant "TooLong" [d.debug]
  | .inverted a b => fmtVariant "Inverted" [a.debug, b.debug]

/-- `#[derive(Debug)]` of `Error`: host/mod.rs 1114-1155. -/
def HostError.debug {E VS : Type} (c : Cfg) (ee : E → Text) (vs : VS → Text) : HostError E VS → Text
  | .badDisconnectionReason s => fmtVariant "BadDisconnectionReason" [s.debug vs]
  | .badRandomAddress a => fmtVariant "BadRandomAddress" [a.debugIn]
  | .badChannelMap b => fmtVariant "BadChannelMap" [fmtFlags c channels b.toUInt64]
  | .advertisingDataTooLong n => fmtVariant "AdvertisingDataTooLong" [fmtDec n]
  | .badConnectionLengthRange a b => fmtVariant "BadConnectionLengthRange" [a.debug, b.debug]
  | .noValidChannel => fmtVariant "NoValidChannel" []
  | .invalidTestChannel b => fmtVariant "InvalidTestChannel" [fmtDec b.toNat]
  | .invalidTestPayloadLength n => fmtVariant "InvalidTestPayloadLength" [fmtDec n]
  | .comm e => fmtVariant "Comm" [ee e]

/-- `{:?}` of a `Result` (`core`); a call that panicked returned nothing. -/
def fmtResult {ε ε' α : Type} (f : α → Text) (g : ε → Text) : Res ε α → Res ε' Text
  | .ok a => .ok (fmtVariant "Ok" [f a])
  | .err e => .ok (fmtVariant "Err" [g e])
  | .panic => .panic

/-- The methods of `host::Hci` that return an `Error<E, VS>`, the others returning an `E`: host/mod.rs 104-108, 414-417,
435-438, 476, 500, 884-887, 1067, 1091-1096. -/
def Command.ownErrors {VS : Type} : Command VS → Bool
  | .disconnect _ _ | .leSetRandomAddress _ | .leSetAdvertisingParameters _ | .leSetAdvertisingData _
  | .leSetScanResponseData _ | .leSetHostChannelClassification _ | .leReceiverTest _ | .leTransmitterTest _ _ _ => true
  | _ => false

/-- `{:?}` of the error of a method that returns an `E`. `Command.exec` wraps that error as `Comm`, which is undone
here; no such method returns another error. -/
def HostError.debugComm {E VS : Type} (c : Cfg) (ee : E → Text) (vs : VS → Text) : HostError E VS → Text
  | .comm e => ee e
  | e => e.debug c ee vs

/-- `{:?}` of what a method of `host::Hci` returned. -/
def Command.debugResult {E VS ε : Type} (c : Cfg) (ee : E → Text) (vs : VS → Text) (cmd : Command VS)
    (r : Res (Nb (HostError E VS)) Unit) : Res ε Text :=
  fmtResult (fun _ => "()".toList)
    (Nb.debug (if cmd.ownErrors then HostError.debug c ee vs else HostError.debugComm c ee vs)) r

end Bt
