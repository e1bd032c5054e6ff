import Verif.Spec.Events
import Verif.Spec.Commands

/-! # Specification: which flag belongs to which event and which command

Event masks (Vol 2 Part E 7.3.1 and 7.8.1) and Supported Commands (6.27), by the names of the flags. -/

namespace Spec

open Bt

/-- `t` offers, in configuration `c`, a flag called `nm` that consists of bit `k`. -/
def Offers (c : Cfg) (t : List FlagDecl) (nm : String) (k : Nat) : Prop :=
  ∃ d ∈ t, d.gate.on c = true ∧ d.name = nm ∧ d.mask.toNat = 2 ^ k

/-- `t` offers, in configuration `c`, a flag called `nm` that consists of bit `j` of octet `i`. -/
def OffersAt (c : Cfg) (t : List ArrFlagDecl) (nm : String) (i j : Nat) : Prop :=
  ∃ d ∈ t, d.gate.on c = true ∧ d.name = nm ∧ d.octet = i ∧ d.mask.toNat = 2 ^ j

/-- The event-mask flag of an event. Command Complete, Command Status, Number Of Completed Packets and vendor
events cannot be masked. -/
def eventFlagName {VS VR VEv : Type} : Event VS VR VEv → Option String
  | .connectionComplete _ => some "CONNECTION_COMPLETE"
  | .disconnectionComplete _ => some "DISCONNECTION_COMPLETE"
  | .encryptionChange _ => some "ENCRYPTION_CHANGE"
  | .readRemoteVersionInformationComplete _ => some "READ_REMOTE_VERSION_INFORMATION_COMPLETE"
  | .commandComplete _ => none
  | .commandStatus _ => none
  | .hardwareError _ => some "HARDWARE_ERROR"
  | .numberOfCompletedPackets _ => none
  | .dataBufferOverflow _ => some "DATA_BUFFER_OVERFLOW"
  | .encryptionKeyRefreshComplete _ => some "ENCRYPTION_KEY_REFRESH_COMPLETE"
  | .leConnectionComplete _ => some "LE_META_EVENT"
  | .leAdvertisingReport _ => some "LE_META_EVENT"
  | .leConnectionUpdateComplete _ => some "LE_META_EVENT"
  | .leReadRemoteUsedFeaturesComplete _ => some "LE_META_EVENT"
  | .leLongTermKeyRequest _ => some "LE_META_EVENT"
  | .leDataLengthChangeEvent _ => some "LE_META_EVENT"
  | .lePhyUpdateComplete _ => some "LE_META_EVENT"
  | .vendor _ => none

/-- The LE event-mask flag of an LE event. -/
def leEventFlagName {VS VR VEv : Type} : Event VS VR VEv → Option String
  | .leConnectionComplete _ => some "CONNECTION_COMPLETE"
  | .leAdvertisingReport _ => some "ADVERTISING_REPORT"
  | .leConnectionUpdateComplete _ => some "CONNECTION_UPDATE_COMPLETE"
  | .leReadRemoteUsedFeaturesComplete _ => some "READ_REMOTE_FEATURES_COMPLETE"
  | .leLongTermKeyRequest _ => some "LONG_TERM_KEY_REQUEST"
  | .leDataLengthChangeEvent _ => some "DATA_LENGTH_CHANGE"
  | .lePhyUpdateComplete _ => some "PHY_UPDATE_COMPLETE"
  | _ => none

/-- The version for which the crate is compiled has the LE event. -/
def LeEventInVersion {VS VR VEv : Type} (c : Cfg) : Event VS VR VEv → Prop
  | .leDataLengthChangeEvent _ => From42 c
  | .lePhyUpdateComplete _ => From50 c
  | _ => True

/-- The Supported Commands flag of a command: name, octet and bit. Read Local Supported Commands has none. -/
def supportFlag {VS : Type} : Command VS → Option (String × Nat × Nat)
  | .disconnect .. => some ("DISCONNECT", 0, 5)
  | .readRemoteVersionInformation .. => some ("READ_REMOTE_VERSION_INFORMATION", 2, 7)
  | .setEventMask .. => some ("SET_EVENT_MASK", 5, 6)
  | .reset => some ("RESET", 5, 7)
  | .readTxPowerLevel .. => some ("READ_TRANSMIT_POWER_LEVEL", 10, 2)
  | .readLocalVersionInformation => some ("READ_LOCAL_VERSION_INFORMATION", 14, 3)
  | .readLocalSupportedCommands => none
  | .readLocalSupportedFeatures => some ("READ_LOCAL_SUPPORTED_FEATURES", 14, 5)
  | .readBdAddr => some ("READ_BD_ADDR", 15, 1)
  | .readRssi .. => some ("READ_RSSI", 15, 5)
  | .leSetEventMask .. => some ("LE_SET_EVENT_MASK", 25, 0)
  | .leReadBufferSize => some ("LE_READ_BUFFER_SIZE", 25, 1)
  | .leReadLocalSupportedFeatures => some ("LE_READ_LOCAL_SUPPORTED_FEATURES", 25, 2)
  | .leSetRandomAddress .. => some ("LE_SET_RANDOM_ADDRESS", 25, 4)
  | .leSetAdvertisingParameters .. => some ("LE_SET_ADVERTISING_PARAMETERS", 25, 5)
  | .leReadAdvertisingChannelTxPower => some ("LE_READ_ADVERTISING_CHANNEL_TX_POWER", 25, 6)
  | .leSetAdvertisingData .. => some ("LE_SET_ADVERTISING_DATA", 25, 7)
  | .leSetScanResponseData .. => some ("LE_SET_SCAN_RESPONSE_DATA", 26, 0)
  | .leSetAdvertiseEnable .. => some ("LE_SET_ADVERTISE_ENABLE", 26, 1)
  | .leSetAdvertisingEnable .. => some ("LE_SET_ADVERTISE_ENABLE", 26, 1)
  | .leSetScanParameters .. => some ("LE_SET_SCAN_PARAMETERS", 26, 2)
  | .leSetScanEnable .. => some ("LE_SET_SCAN_ENABLE", 26, 3)
  | .leCreateConnection .. => some ("LE_CREATE_CONNECTION", 26, 4)
  | .leCreateConnectionCancel => some ("LE_CREATE_CONNECTION_CANCEL", 26, 5)
  | .leReadWhiteListSize => some ("LE_READ_WHITE_LIST_SIZE", 26, 6)
  | .leClearWhiteList => some ("LE_CLEAR_WHITE_LIST", 26, 7)
  | .leAddDeviceToWhiteList .. => some ("LE_ADD_DEVICE_TO_WHITE_LIST", 27, 0)
  | .leAddAnonAdvertisingDevicesToWhiteList => some ("LE_ADD_DEVICE_TO_WHITE_LIST", 27, 0)
  | .leRemoveDeviceFromWhiteList .. => some ("LE_REMOVE_DEVICE_FROM_WHITE_LIST", 27, 1)
  | .leRemoveAnonAdvertisingDevicesFromWhiteList => some ("LE_REMOVE_DEVICE_FROM_WHITE_LIST", 27, 1)
  | .leConnectionUpdate .. => some ("LE_CONNECTION_UPDATE", 27, 2)
  | .leSetHostChannelClassification .. => some ("LE_SET_HOST_CHANNEL_CLASSIFICATION", 27, 3)
  | .leReadChannelMap .. => some ("LE_READ_CHANNEL_MAP", 27, 4)
  | .leReadRemoteUsedFeatures .. => some ("LE_READ_REMOTE_USED_FEATURES", 27, 5)
  | .leEncrypt .. => some ("LE_ENCRYPT", 27, 6)
  | .leRand => some ("LE_RAND", 27, 7)
  | .leStartEncryption .. => some ("LE_START_ENCRYPTION", 28, 0)
  | .leLongTermKeyRequestReply .. => some ("LE_LONG_TERM_KEY_REQUEST_REPLY", 28, 1)
  | .leLongTermKeyRequestNegativeReply .. => some ("LE_LONG_TERM_KEY_REQUEST_NEGATIVE_REPLY", 28, 2)
  | .leReadSupportedStates => some ("LE_READ_SUPPORTED_STATES", 28, 3)
  | .leReceiverTest .. => some ("LE_RECEIVER_TEST", 28, 4)
  | .leTransmitterTest .. => some ("LE_TRANSMITTER_TEST", 28, 5)
  | .leTestEnd => some ("LE_TEST_END", 28, 6)

end Spec
