import Verif.Basic

/-! # Model of `/repo/src/types/common.rs` -/

namespace Bt

/-- `CommonDataType`: types/common.rs 9-104. -/
inductive CommonDataType where
  | flags
  | incompleteListOf16BitServiceClassUuids
  | completeListOf16BitServiceClassUuids
  | incompleteListOf32BitServiceClassUuids
  | completeListOf32BitServiceClassUuids
  | incompleteListOf128BitServiceClassUuids
  | completeListOf128BitServiceClassUuids
  | shortenedLocalName
  | completeLocalName
  | txPowerLevel
  | classOfDevice
  | simplePairingHashC192
  | simplePairingRandomizerR192
  | deviceId
  | securityManagerTkValue
  | peripheralConnectionIntervalRange
  | listOf16BitServiceSolicitationUuids
  | listOf128BitServiceSolicitationUuids
  | serviceData16BitUuid
  | publicTargetAddress
  | randomTargetAddress
  | appearance
  | advertisingInterval
  | leBluetoothDeviceAddress
  | leRole
  | simplePairingHashC256
  | simplePairingRandomizerR256
  | listOf32BitServiceSolicitationUuids
  | serviceData32BitUuid
  | serviceData128BitUuid
  | leSecureConnectionsConfirmationValue
  | leSecureConnectionsRandomValue
  | uri
  | indoorPositioning
  | transportDiscoveryData
  | leSupportedFeatures
  | channelMapUpdateIndication
  | pbAdv
  | meshMessage
  | meshBeacon
  | bigInfo
  | broadcastCode
  | resolvableSetIdentifier
  | advertisingIntervalLong
  | broadcastName
  | threeDInformationData
  | manufacturerSpecificData
  deriving DecidableEq, Repr

namespace CommonDataType

/-- `t as u8`: the discriminants, types/common.rs 11-103. -/
def asU8 : CommonDataType → UInt8
  | .flags => 0x01
  | .incompleteListOf16BitServiceClassUuids => 0x02
  | .completeListOf16BitServiceClassUuids => 0x03
  | .incompleteListOf32BitServiceClassUuids => 0x04
  | .completeListOf32BitServiceClassUuids => 0x05
  | .incompleteListOf128BitServiceClassUuids => 0x06
  | .completeListOf128BitServiceClassUuids => 0x07
  | .shortenedLocalName => 0x08
  | .completeLocalName => 0x09
  | .txPowerLevel => 0x0a
  | .classOfDevice => 0x0d
  | .simplePairingHashC192 => 0x0e
  | .simplePairingRandomizerR192 => 0x0f
  | .deviceId => 0x10
  | .securityManagerTkValue => 0x11
  | .peripheralConnectionIntervalRange => 0x12
  | .listOf16BitServiceSolicitationUuids => 0x14
  | .listOf128BitServiceSolicitationUuids => 0x15
  | .serviceData16BitUuid => 0x16
  | .publicTargetAddress => 0x17
  | .randomTargetAddress => 0x18
  | .appearance => 0x19
  | .advertisingInterval => 0x1a
  | .leBluetoothDeviceAddress => 0x1b
  | .leRole => 0x1c
  | .simplePairingHashC256 => 0x1d
  | .simplePairingRandomizerR256 => 0x1e
  | .listOf32BitServiceSolicitationUuids => 0x1f
  | .serviceData32BitUuid => 0x20
  | .serviceData128BitUuid => 0x21
  | .leSecureConnectionsConfirmationValue => 0x22
  | .leSecureConnectionsRandomValue => 0x23
  | .uri => 0x24
  | .indoorPositioning => 0x25
  | .transportDiscoveryData => 0x26
  | .leSupportedFeatures => 0x27
  | .channelMapUpdateIndication => 0x28
  | .pbAdv => 0x29
  | .meshMessage => 0x2a
  | .meshBeacon => 0x2b
  | .bigInfo => 0x2c
  | .broadcastCode => 0x2d
  | .resolvableSetIdentifier => 0x2e
  | .advertisingIntervalLong => 0x2f
  | .broadcastName => 0x30
  | .threeDInformationData => 0x3d
  | .manufacturerSpecificData => 0xff

/-- The name of the variant, as its derived `Debug` prints it: types/common.rs 11-103. -/
def name : CommonDataType → String
  | .flags => "Flags"
  | .incompleteListOf16BitServiceClassUuids => "IncompleteListOf16BitServiceClassUuids"
  | .completeListOf16BitServiceClassUuids => "CompleteListOf16BitServiceClassUuids"
  | .incompleteListOf32BitServiceClassUuids => "IncompleteListOf32BitServiceClassUuids"
  | .completeListOf32BitServiceClassUuids => "CompleteListOf32BitServiceClassUuids"
  | .incompleteListOf128BitServiceClassUuids => "IncompleteListOf128BitServiceClassUuids"
  | .completeListOf128BitServiceClassUuids => "CompleteListOf128BitServiceClassUuids"
  | .shortenedLocalName => "ShortenedLocalName"
  | .completeLocalName => "CompleteLocalName"
  | .txPowerLevel => "TxPowerLevel"
  | .classOfDevice => "ClassOfDevice"
  | .simplePairingHashC192 => "SimplePairingHashC192"
  | .simplePairingRandomizerR192 => "SimplePairingRandomizerR192"
  | .deviceId => "DeviceId"
  | .securityManagerTkValue => "SecurityManagerTkValue"
  | .peripheralConnectionIntervalRange => "PeripheralConnectionIntervalRange"
  | .listOf16BitServiceSolicitationUuids => "ListOf16BitServiceSolicitationUuids"
  | .listOf128BitServiceSolicitationUuids => "ListOf128BitServiceSolicitationUuids"
  | .serviceData16BitUuid => "ServiceData16BitUuid"
  | .publicTargetAddress => "PublicTargetAddress"
  | .randomTargetAddress => "RandomTargetAddress"
  | .appearance => "Appearance"
  | .advertisingInterval => "AdvertisingInterval"
  | .leBluetoothDeviceAddress => "LeBluetoothDeviceAddress"
  | .leRole => "LeRole"
  | .simplePairingHashC256 => "SimplePairingHashC256"
  | .simplePairingRandomizerR256 => "SimplePairingRandomizerR256"
  | .listOf32BitServiceSolicitationUuids => "ListOf32BitServiceSolicitationUuids"
  | .serviceData32BitUuid => "ServiceData32BitUuid"
  | .serviceData128BitUuid => "ServiceData128BitUuid"
  | .leSecureConnectionsConfirmationValue => "LeSecureConnectionsConfirmationValue"
  | .leSecureConnectionsRandomValue => "LeSecureConnectionsRandomValue"
  | .uri => "Uri"
  | .indoorPositioning => "IndoorPositioning"
  | .transportDiscoveryData => "TransportDiscoveryData"
  | .leSupportedFeatures => "LeSupportedFeatures"
  | .channelMapUpdateIndication => "ChannelMapUpdateIndication"
  | .pbAdv => "PbAdv"
  | .meshMessage => "MeshMessage"
  | .meshBeacon => "MeshBeacon"
  | .bigInfo => "BigInfo"
  | .broadcastCode => "BroadcastCode"
  | .resolvableSetIdentifier => "ResolvableSetIdentifier"
  | .advertisingIntervalLong => "AdvertisingIntervalLong"
  | .broadcastName => "BroadcastName"
  | .threeDInformationData => "ThreeDInformationData"
  | .manufacturerSpecificData => "ManufacturerSpecificData"

end CommonDataType

end Bt
