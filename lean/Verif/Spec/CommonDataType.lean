import Verif.Basic

/-! # The registry of common data types

Bluetooth Assigned Numbers, section 2.3 ("Common Data Types"): the numbers and the names registered for them
(spaces and punctuation left out; 0x10 is registered twice). -/

namespace Spec

/-- Number and names. -/
def commonDataTypes : List (UInt8 × List String) :=
  [(0x01, ["Flags"]),
   (0x02, ["IncompleteListOf16BitServiceClassUuids"]),
   (0x03, ["CompleteListOf16BitServiceClassUuids"]),
   (0x04, ["IncompleteListOf32BitServiceClassUuids"]),
   (0x05, ["CompleteListOf32BitServiceClassUuids"]),
   (0x06, ["IncompleteListOf128BitServiceClassUuids"]),
   (0x07, ["CompleteListOf128BitServiceClassUuids"]),
   (0x08, ["ShortenedLocalName"]),
   (0x09, ["CompleteLocalName"]),
   (0x0a, ["TxPowerLevel"]),
   (0x0d, ["ClassOfDevice"]),
   (0x0e, ["SimplePairingHashC192"]),
   (0x0f, ["SimplePairingRandomizerR192"]),
   (0x10, ["DeviceId", "SecurityManagerTkValue"]),
   (0x11, ["SecurityManagerOutOfBandFlags"]),
   (0x12, ["PeripheralConnectionIntervalRange"]),
   (0x14, ["ListOf16BitServiceSolicitationUuids"]),
   (0x15, ["ListOf128BitServiceSolicitationUuids"]),
   (0x16, ["ServiceData16BitUuid"]),
   (0x17, ["PublicTargetAddress"]),
   (0x18, ["RandomTargetAddress"]),
   (0x19, ["Appearance"]),
   (0x1a, ["AdvertisingInterval"]),
   (0x1b, ["LeBluetoothDeviceAddress"]),
   (0x1c, ["LeRole"]),
   (0x1d, ["SimplePairingHashC256"]),
   (0x1e, ["SimplePairingRandomizerR256"]),
   (0x1f, ["ListOf32BitServiceSolicitationUuids"]),
   (0x20, ["ServiceData32BitUuid"]),
   (0x21, ["ServiceData128BitUuid"]),
   (0x22, ["LeSecureConnectionsConfirmationValue"]),
   (0x23, ["LeSecureConnectionsRandomValue"]),
   (0x24, ["Uri"]),
   (0x25, ["IndoorPositioning"]),
   (0x26, ["TransportDiscoveryData"]),
   (0x27, ["LeSupportedFeatures"]),
   (0x28, ["ChannelMapUpdateIndication"]),
   (0x29, ["PbAdv"]),
   (0x2a, ["MeshMessage"]),
   (0x2b, ["MeshBeacon"]),
   (0x2c, ["BigInfo"]),
   (0x2d, ["BroadcastCode"]),
   (0x2e, ["ResolvableSetIdentifier"]),
   (0x2f, ["AdvertisingIntervalLong"]),
   (0x30, ["BroadcastName"]),
   (0x31, ["EncryptedAdvertisingData"]),
   (0x32, ["PeriodicAdvertisingResponseTimingInformation"]),
   (0x34, ["ElectronicShelfLabel"]),
   (0x3d, ["ThreeDInformationData"]),
   (0xff, ["ManufacturerSpecificData"])]

/-- `code` is registered under `name`. -/
def Registered (code : UInt8) (name : String) : Prop :=
  ∃ names, (code, names) ∈ commonDataTypes ∧ name ∈ names

instance (code : UInt8) (name : String) : Decidable (Registered code name) :=
  decidable_of_iff (∃ e ∈ commonDataTypes, e.1 = code ∧ name ∈ e.2)
    ⟨fun ⟨⟨_, ns⟩, h, hc, hn⟩ => ⟨ns, hc ▸ h, hn⟩, fun ⟨ns, h, hn⟩ => ⟨(code, ns), h, rfl, hn⟩⟩

end Spec
