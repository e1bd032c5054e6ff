import Verif.Basic

/-! # Flag tables and the flag types of the crate

`bitflags!` types (crate `bitflags` 1.2) are integers with a table of declared masks; the
`bitflag_array!` macro of the crate is modelled in `Verif.Model.BitflagArray`.  The tables below list
every flag of every table with its `#[cfg]` gate and mask, in source order. -/

namespace Bt

/-- `#[cfg]` attribute in front of a flag. -/
inductive Gate where
  | always
  /-- `cfg(any(feature = "version-4-2", feature = "version-5-0"))` -/
  | any42
  /-- `cfg(feature = "version-5-0")` -/
  | only50
  deriving DecidableEq, Repr

/-- Is the gated item compiled in configuration `c`? -/
def Gate.on (c : Cfg) : Gate → Bool
  | .always => true
  | .any42 => c.any42
  | .only50 => c.v50

/-- `1 << n` for a `u64` mask (`n < 64`). -/
def bit (n : Nat) : UInt64 := UInt64.ofNat (2 ^ n)

/-- `1 << n` for a `u8` mask (`n < 8`). -/
def bit8 (n : Nat) : UInt8 := UInt8.ofNat (2 ^ n)

/-- One `const NAME = mask;` line of a `bitflags!` table over `u64` (or `u8`, zero-extended). -/
structure FlagDecl where
  name : String
  gate : Gate
  mask : UInt64
  deriving DecidableEq, Repr

/-- The masks declared in configuration `c`. -/
def declared (c : Cfg) (t : List FlagDecl) : List UInt64 :=
  (t.filter (fun d => d.gate.on c)).map FlagDecl.mask

/-- `T::all().bits()` of a `bitflags!` type (crate `bitflags`): the union of the declared masks. -/
def allBits (c : Cfg) (t : List FlagDecl) : UInt64 :=
  (declared c t).foldl (· ||| ·) 0

/-- `T::from_bits(x)` of a `bitflags!` type: `None` if any undeclared bit is set. -/
def fromBits (c : Cfg) (t : List FlagDecl) (x : UInt64) : Option UInt64 :=
  if x &&& ~~~ (allBits c t) = 0 then some x else none

/-- `T::from_bits_truncate(x)` of a `bitflags!` type: undeclared bits are cleared. -/
def fromBitsTruncate (c : Cfg) (t : List FlagDecl) (x : UInt64) : UInt64 :=
  x &&& allBits c t

/-- One `const NAME = octet, mask;` line of a `bitflag_array!` table. -/
structure ArrFlagDecl where
  name : String
  gate : Gate
  octet : Nat
  mask : UInt8
  deriving DecidableEq, Repr

/-- Flags of `LinkLayerFeature`: lib.rs 767-814. -/
def linkLayerFeature : List FlagDecl :=
  [⟨"LE_ENCRYPTION", .always, bit 0⟩,
   ⟨"CONNECTION_PARAMETERS_REQUEST_PROCEDURE", .always, bit 1⟩,
   ⟨"EXTENDED_REJECT_INDICATION", .always, bit 2⟩,
   ⟨"PERIPHERAL_INITIATED_FEATURES_EXCHANGE", .always, bit 3⟩,
   ⟨"LE_PING", .always, bit 4⟩,
   ⟨"LE_DATA_PACKET_LENGTH_EXTENSION", .any42, bit 5⟩,
   ⟨"LL_PRIVACY", .any42, bit 6⟩,
   ⟨"EXTENDED_SCANNER_FILTER_POLICIES", .any42, bit 7⟩,
   ⟨"LE_2M_PHY", .only50, bit 8⟩,
   ⟨"STABLE_MODULATION_INDEX_TX", .only50, bit 9⟩,
   ⟨"STABLE_MODULATION_INDEX_RX", .only50, bit 10⟩,
   ⟨"LE_CODED_PHY", .only50, bit 11⟩,
   ⟨"LE_EXTENDED_ADVERTISING", .only50, bit 12⟩,
   ⟨"LE_PERIODIC_ADVERTISING", .only50, bit 13⟩,
   ⟨"CHANNEL_SELECTION_ALGORITHM_2", .only50, bit 14⟩,
   ⟨"LE_POWER_CLASS_1", .only50, bit 15⟩,
   ⟨"MINIMUM_NUMBER_OF_USED_CHANNELS_PROCEDURE", .only50, bit 16⟩]

/-- Flags of `LmpFeatures`: event/command.rs 1091-1202. -/
def lmpFeatures : List FlagDecl :=
  [⟨"THREE_SLOT_PACKETS", .always, bit 0⟩,
   ⟨"FIVE_SLOT_PACKETS", .always, bit 1⟩,
   ⟨"ENCRYPTION", .always, bit 2⟩,
   ⟨"SLOT_OFFSET", .always, bit 3⟩,
   ⟨"TIMING_ACCURACY", .always, bit 4⟩,
   ⟨"ROLE_SWITCH", .always, bit 5⟩,
   ⟨"HOLD_MODE", .always, bit 6⟩,
   ⟨"SNIFF_MODE", .always, bit 7⟩,
   ⟨"POWER_CONTROL_REQUESTS", .always, bit 9⟩,
   ⟨"CHANNEL_QUALITY_DRIVEN_DATA_RATE_CQDDR", .always, bit 10⟩,
   ⟨"SCO_LINK", .always, bit 11⟩,
   ⟨"HV2_PACKETS", .always, bit 12⟩,
   ⟨"HV3_PACKETS", .always, bit 13⟩,
   ⟨"MU_LAW_LOG_SYNCHRONOUS_DATA", .always, bit 14⟩,
   ⟨"A_LAW_LOG_SYNCHRONOUS_DATA", .always, bit 15⟩,
   ⟨"CVSD_SYNCHRONOUS_DATA", .always, bit 16⟩,
   ⟨"PAGING_PARAMETER_NEGOTIATION", .always, bit 17⟩,
   ⟨"POWER_CONTROL", .always, bit 18⟩,
   ⟨"TRANSPARENT_SYNCHRONOUS_DATA", .always, bit 19⟩,
   ⟨"FLOW_CONTROL_LAG_LSB", .always, bit 20⟩,
   ⟨"FLOW_CONTROL_LAG_MID", .always, bit 21⟩,
   ⟨"FLOW_CONTROL_LAG_MSB", .always, bit 22⟩,
   ⟨"BROADCAST_ENCRYPTION", .always, bit 23⟩,
   ⟨"ENHANCED_DATA_RATE_ACL_2_MB_PER_S_MODE", .always, bit 25⟩,
   ⟨"ENHANCED_DATA_RATE_ACL_3_MB_PER_S_MODE", .always, bit 26⟩,
   ⟨"ENHANCED_INQUIRY_SCAN", .always, bit 27⟩,
   ⟨"INTERLACED_INQUIRY_SCAN", .always, bit 28⟩,
   ⟨"INTERLACED_PAGE_SCAN", .always, bit 29⟩,
   ⟨"RSSI_WITH_INQUIRY_RESULTS", .always, bit 30⟩,
   ⟨"EXTENDED_SCO_LINK_EV3_PACKETS", .always, bit 31⟩,
   ⟨"EV4_PACKETS", .always, bit 32⟩,
   ⟨"EV5_PACKETS", .always, bit 33⟩,
   ⟨"AFH_CAPABLE_PERIPHERAL", .always, bit 35⟩,
   ⟨"AFH_CLASSIFICATION_PERIPHERAL", .always, bit 36⟩,
   ⟨"BR_EDR_NOT_SUPPORTED", .always, bit 37⟩,
   ⟨"LE_SUPPORTED_BY_CONTROLLER", .always, bit 38⟩,
   ⟨"THREE_SLOT_ENHANCED_DATA_RATE_ACL_PACKETS", .always, bit 39⟩,
   ⟨"FIVE_SLOT_ENHANCED_DATA_RATE_ACL_PACKETS", .always, bit 40⟩,
   ⟨"SNIFF_SUBRATING", .always, bit 41⟩,
   ⟨"PAUSE_ENCRYPTION", .always, bit 42⟩,
   ⟨"AFH_CAPABLE_CENTRAL_DEVICE", .always, bit 43⟩,
   ⟨"AFH_CLASSIFICATION_CENTRAL_DEVICE", .always, bit 44⟩,
   ⟨"ENHANCED_DATA_RATE_ESCO_2_MB_PER_S_MODE", .always, bit 45⟩,
   ⟨"ENHANCED_DATA_RATE_ESCO_3_MB_PER_S_MODE", .always, bit 46⟩,
   ⟨"THREE_SLOT_ENHANCED_DATA_RATE_ESCO_PACKETS", .always, bit 47⟩,
   ⟨"EXTENDED_INQUIRY_RESPONSE", .always, bit 48⟩,
   ⟨"SIMULTANEOUS_LE_AND_BR_EDR_TO_SAME_DEVICE_CAPABLE", .always, bit 49⟩,
   ⟨"SECURE_SIMPLE_PAIRING", .always, bit 51⟩,
   ⟨"ENCAPSULATED_PDU", .always, bit 52⟩,
   ⟨"ERRONEOUS_DATA_REPORTING", .always, bit 53⟩,
   ⟨"NON_FLUSHABLE_PACKET_BOUNDARY_FLAG", .always, bit 54⟩,
   ⟨"LINK_SUPERVISION_TIMEOUT_CHANGED_EVENT", .always, bit 56⟩,
   ⟨"INQUIRY_TX_POWER_LEVEL", .always, bit 57⟩,
   ⟨"ENHANCED_POWER_CONTROL", .always, bit 58⟩,
   ⟨"EXTENDED_FEATURES", .always, bit 63⟩]

/-- Flags of `LeFeatures`: event/command.rs 1334-1381. -/
def leFeatures : List FlagDecl :=
  [⟨"ENCRYPTION", .always, bit 0⟩,
   ⟨"CONNECTION_PARAMETERS_REQUEST_PROCEDURE", .always, bit 1⟩,
   ⟨"EXTENDED_REJECT_INDICATION", .always, bit 2⟩,
   ⟨"PERIPHERALINITIATED_FEATURES_EXCHANGE", .always, bit 3⟩,
   ⟨"PING", .always, bit 4⟩,
   ⟨"DATA_PACKET_LENGTH_EXTENSION", .any42, bit 5⟩,
   ⟨"LL_PRIVACY", .any42, bit 6⟩,
   ⟨"EXTENDED_SCANNER_FILTER_POLICIES", .any42, bit 7⟩,
   ⟨"PHY_2M", .only50, bit 8⟩,
   ⟨"STABLE_MODULATION_INDEX_TX", .only50, bit 9⟩,
   ⟨"STABLE_MODULATION_INDEX_RX", .only50, bit 10⟩,
   ⟨"CODED_PHY", .only50, bit 11⟩,
   ⟨"EXTENDED_ADVERTISING", .only50, bit 12⟩,
   ⟨"PERIODIC_ADVERTISING", .only50, bit 13⟩,
   ⟨"CHANNEL_SELECTION_ALGORITHM_2", .only50, bit 14⟩,
   ⟨"POWER_CLASS_1", .only50, bit 15⟩,
   ⟨"MINIMUM_NUMBER_OF_USED_CHANNELS_PROCEDURE", .only50, bit 16⟩]

/-- Flags of `LeStates`: event/command.rs 1574-1659. -/
def leStates : List FlagDecl :=
  [⟨"NON_CONNECTABLE_ADVERTISING", .always, bit 0⟩,
   ⟨"SCANNABLE_ADVERTISING", .always, bit 1⟩,
   ⟨"CONNECTABLE_ADVERTISING", .always, bit 2⟩,
   ⟨"DIRECTED_ADVERTISING_HIGH_DUTY_CYCLE", .always, bit 3⟩,
   ⟨"PASSIVE_SCANNING", .always, bit 4⟩,
   ⟨"ACTIVE_SCANNING", .always, bit 5⟩,
   ⟨"INITIATING", .always, bit 6⟩,
   ⟨"PERIPHERAL_CONNECTION", .always, bit 7⟩,
   ⟨"NONCONN_AD_AND_PASS_SCAN", .always, bit 8⟩,
   ⟨"SCAN_AD_AND_PASS_SCAN", .always, bit 9⟩,
   ⟨"CONN_AD_AND_PASS_SCAN", .always, bit 10⟩,
   ⟨"DIR_AD_HDC_AND_PASS_SCAN", .always, bit 11⟩,
   ⟨"NONCONN_AD_AND_ACT_SCAN", .always, bit 12⟩,
   ⟨"SCAN_AD_AND_ACT_SCAN", .always, bit 13⟩,
   ⟨"CONN_AD_AND_ACT_SCAN", .always, bit 14⟩,
   ⟨"DIR_AD_HDC_AND_ACT_SCAN", .always, bit 15⟩,
   ⟨"NONCONN_AD_AND_INITIATING", .always, bit 16⟩,
   ⟨"SCAN_AD_AND_INITIATING", .always, bit 17⟩,
   ⟨"NONCONN_AD_AND_CENTRAL_CONN", .always, bit 18⟩,
   ⟨"SCAN_AD_AND_CENTRAL_CONN", .always, bit 19⟩,
   ⟨"NONCONN_AD_AND_PERIPH_CONN", .always, bit 20⟩,
   ⟨"SCAN_AD_AND_PERIPH_CONN", .always, bit 21⟩,
   ⟨"PASS_SCAN_AND_INITIATING", .always, bit 22⟩,
   ⟨"ACT_SCAN_AND_INITIATING", .always, bit 23⟩,
   ⟨"PASS_SCAN_AND_CENTRAL_CONN", .always, bit 24⟩,
   ⟨"ACT_SCAN_AND_CENTRAL_CONN", .always, bit 25⟩,
   ⟨"PASS_SCAN_AND_PERIPH_CONN", .always, bit 26⟩,
   ⟨"ACT_SCAN_AND_PERIPH_CONN", .always, bit 27⟩,
   ⟨"INITIATING_AND_CENTRAL_CONN", .always, bit 28⟩,
   ⟨"DIRECTED_ADVERTISING_LOW_DUTY_CYCLE", .always, bit 29⟩,
   ⟨"DIR_AD_LDC_AND_PASS_SCAN", .always, bit 30⟩,
   ⟨"DIR_AD_LDC_AND_ACT_SCAN", .always, bit 31⟩,
   ⟨"CONN_AD_AND_INITIATING", .always, bit 32⟩,
   ⟨"DIR_AD_HDC_AND_INITIATING", .always, bit 33⟩,
   ⟨"DIR_AD_LDC_AND_INITIATING", .always, bit 34⟩,
   ⟨"CONN_AD_AND_CENTRAL_CONN", .always, bit 35⟩,
   ⟨"DIR_AD_HDC_AND_CENTRAL_CONN", .always, bit 36⟩,
   ⟨"DIR_AD_LDC_AND_CENTRAL_CONN", .always, bit 37⟩,
   ⟨"CONN_AD_AND_PERIPH_CONN", .always, bit 38⟩,
   ⟨"DIR_AD_HDC_AND_PERIPH_CONN", .always, bit 39⟩,
   ⟨"DIR_AD_LDC_AND_PERIPH_CONN", .always, bit 40⟩,
   ⟨"INITIATING_AND_PERIPH_CONN", .always, bit 41⟩]

/-- Flags of `EventFlags`: host/mod.rs 1549-1649. -/
def eventFlags : List FlagDecl :=
  [⟨"INQUIRY_COMPLETE", .always, 0x0000000000000001⟩,
   ⟨"INQUIRY_RESULT", .always, 0x0000000000000002⟩,
   ⟨"CONNECTION_COMPLETE", .always, 0x0000000000000004⟩,
   ⟨"CONNECTION_REQUEST", .always, 0x0000000000000008⟩,
   ⟨"DISCONNECTION_COMPLETE", .always, 0x0000000000000010⟩,
   ⟨"AUTHENTICATION_COMPLETE", .always, 0x0000000000000020⟩,
   ⟨"REMOTE_NAME_REQUEST_COMPLETE", .always, 0x0000000000000040⟩,
   ⟨"ENCRYPTION_CHANGE", .always, 0x0000000000000080⟩,
   ⟨"CHANGE_CONNECTION_LINK_KEY_COMPLETE", .always, 0x0000000000000100⟩,
   ⟨"MASTER_LINK_KEY_COMPLETE", .always, 0x0000000000000200⟩,
   ⟨"READ_REMOTE_SUPPORTED_FEATURES_COMPLETE", .always, 0x0000000000000400⟩,
   ⟨"READ_REMOTE_VERSION_INFORMATION_COMPLETE", .always, 0x0000000000000800⟩,
   ⟨"QOS_SETUP_COMPLETE", .always, 0x0000000000001000⟩,
   ⟨"HARDWARE_ERROR", .always, 0x0000000000008000⟩,
   ⟨"FLUSH_OCCURRED", .always, 0x0000000000010000⟩,
   ⟨"ROLE_CHANGE", .always, 0x0000000000020000⟩,
   ⟨"MODE_CHANGE", .always, 0x0000000000080000⟩,
   ⟨"RETURN_LINK_KEYS", .always, 0x0000000000100000⟩,
   ⟨"PIN_CODE_REQUEST", .always, 0x0000000000200000⟩,
   ⟨"LINK_KEY_REQUEST", .always, 0x0000000000400000⟩,
   ⟨"LINK_KEY_NOTIFICATION", .always, 0x0000000000800000⟩,
   ⟨"LOOPBACK_COMMAND", .always, 0x0000000001000000⟩,
   ⟨"DATA_BUFFER_OVERFLOW", .always, 0x0000000002000000⟩,
   ⟨"MAX_SLOTS_CHANGE", .always, 0x0000000004000000⟩,
   ⟨"READ_CLOCK_OFFSET_COMPLETE", .always, 0x0000000008000000⟩,
   ⟨"CONNECTION_PACKET_TYPE_CHANGED", .always, 0x0000000010000000⟩,
   ⟨"QOS_VIOLATION", .always, 0x0000000020000000⟩,
   ⟨"PAGE_SCAN_MODE_CHANGE", .always, 0x0000000040000000⟩,
   ⟨"PAGE_SCAN_REPETITION_MODE_CHANGE", .always, 0x0000000080000000⟩,
   ⟨"FLOW_SPECIFICATION_COMPLETE", .always, 0x0000000100000000⟩,
   ⟨"INQUIRY_RESULT_WITH_RSSI", .always, 0x0000000200000000⟩,
   ⟨"READ_REMOTE_EXTENDED_FEATURES_COMPLETE", .always, 0x0000000400000000⟩,
   ⟨"SYNCHRONOUS_CONNECTION_COMPLETE", .always, 0x0000080000000000⟩,
   ⟨"SYNCHRONOUS_CONNECTION_CHANGED", .always, 0x0000100000000000⟩,
   ⟨"SNIFF_SUBRATING", .always, 0x0000200000000000⟩,
   ⟨"EXTENDED_INQUIRY_RESULT", .always, 0x0000400000000000⟩,
   ⟨"ENCRYPTION_KEY_REFRESH_COMPLETE", .always, 0x0000800000000000⟩,
   ⟨"IO_CAPABILITY_REQUEST", .always, 0x0001000000000000⟩,
   ⟨"IO_CAPABILITY_REQUEST_REPLY", .always, 0x0002000000000000⟩,
   ⟨"USER_CONFIRMATION_REQUEST", .always, 0x0004000000000000⟩,
   ⟨"USER_PASSKEY_REQUEST", .always, 0x0008000000000000⟩,
   ⟨"REMOTE_OOB_DATA_REQUEST", .always, 0x0010000000000000⟩,
   ⟨"SIMPLE_PAIRING_COMPLETE", .always, 0x0020000000000000⟩,
   ⟨"LINK_SUPERVISION_TIMEOUT_CHANGED", .always, 0x0080000000000000⟩,
   ⟨"ENHANCED_FLUSH_COMPLETE", .always, 0x0100000000000000⟩,
   ⟨"USER_PASSKEY_NOTIFICATION", .always, 0x0400000000000000⟩,
   ⟨"KEYPRESS_NOTIFICATION", .always, 0x0800000000000000⟩,
   ⟨"REMOTE_HOST_SUPPORTED_FEATURES_NOTIFICATION", .always, 0x1000000000000000⟩,
   ⟨"LE_META_EVENT", .always, 0x2000000000000000⟩]

/-- Flags of `LeEventFlags`: host/mod.rs 1668-1723. -/
def leEventFlags : List FlagDecl :=
  [⟨"CONNECTION_COMPLETE", .always, bit 0⟩,
   ⟨"ADVERTISING_REPORT", .always, bit 1⟩,
   ⟨"CONNECTION_UPDATE_COMPLETE", .always, bit 2⟩,
   ⟨"READ_REMOTE_FEATURES_COMPLETE", .always, bit 3⟩,
   ⟨"LONG_TERM_KEY_REQUEST", .always, bit 4⟩,
   ⟨"REMOTE_CONNECTION_PARAMETER_REQUEST", .always, bit 5⟩,
   ⟨"DATA_LENGTH_CHANGE", .any42, bit 6⟩,
   ⟨"READ_LOCAL_P256_PUBLIC_KEY_COMPLETE", .any42, bit 7⟩,
   ⟨"GENERATE_DHKEY_COMPLETE", .any42, bit 8⟩,
   ⟨"ENHANCED_CONNECTION_COMPLETE", .any42, bit 9⟩,
   ⟨"DIRECTED_ADVERTISING_REPORT", .any42, bit 10⟩,
   ⟨"PHY_UPDATE_COMPLETE", .only50, bit 11⟩,
   ⟨"EXTENDED_ADVERTISING_REPORT", .only50, bit 12⟩,
   ⟨"PERIODIC_ADVERTISING_SYNC_ESTABLISHED", .only50, bit 13⟩,
   ⟨"PERIODIC_ADVERTISING_REPORT", .only50, bit 14⟩,
   ⟨"PERIODIC_ADVERTISING_SYNC_LOST", .only50, bit 15⟩,
   ⟨"EXTENDED_SCAN_TIMEOUT", .only50, bit 16⟩,
   ⟨"EXTENDED_ADVERTISING_SET_TERMINATED", .only50, bit 17⟩,
   ⟨"SCAN_REQUEST_RECEIVED", .only50, bit 18⟩,
   ⟨"CHANNEL_SELECTION_ALGORITHM", .only50, bit 19⟩]

/-- Flags of `Channels`: host/mod.rs 1828-1835. -/
def channels : List FlagDecl :=
  [⟨"CH_37", .always, 0b00000001⟩,
   ⟨"CH_38", .always, 0b00000010⟩,
   ⟨"CH_39", .always, 0b00000100⟩]

/-- Flags of `ChannelClassification`: lib.rs 823-900. -/
def channelClassification : List ArrFlagDecl :=
  [⟨"CH_0", .always, 0, bit8 0⟩,
   ⟨"CH_1", .always, 0, bit8 1⟩,
   ⟨"CH_2", .always, 0, bit8 2⟩,
   ⟨"CH_3", .always, 0, bit8 3⟩,
   ⟨"CH_4", .always, 0, bit8 4⟩,
   ⟨"CH_5", .always, 0, bit8 5⟩,
   ⟨"CH_6", .always, 0, bit8 6⟩,
   ⟨"CH_7", .always, 0, bit8 7⟩,
   ⟨"CH_8", .always, 1, bit8 0⟩,
   ⟨"CH_9", .always, 1, bit8 1⟩,
   ⟨"CH_10", .always, 1, bit8 2⟩,
   ⟨"CH_11", .always, 1, bit8 3⟩,
   ⟨"CH_12", .always, 1, bit8 4⟩,
   ⟨"CH_13", .always, 1, bit8 5⟩,
   ⟨"CH_14", .always, 1, bit8 6⟩,
   ⟨"CH_15", .always, 1, bit8 7⟩,
   ⟨"CH_16", .always, 2, bit8 0⟩,
   ⟨"CH_17", .always, 2, bit8 1⟩,
   ⟨"CH_18", .always, 2, bit8 2⟩,
   ⟨"CH_19", .always, 2, bit8 3⟩,
   ⟨"CH_20", .always, 2, bit8 4⟩,
   ⟨"CH_21", .always, 2, bit8 5⟩,
   ⟨"CH_22", .always, 2, bit8 6⟩,
   ⟨"CH_23", .always, 2, bit8 7⟩,
   ⟨"CH_24", .always, 3, bit8 0⟩,
   ⟨"CH_25", .always, 3, bit8 1⟩,
   ⟨"CH_26", .always, 3, bit8 2⟩,
   ⟨"CH_27", .always, 3, bit8 3⟩,
   ⟨"CH_28", .always, 3, bit8 4⟩,
   ⟨"CH_29", .always, 3, bit8 5⟩,
   ⟨"CH_30", .always, 3, bit8 6⟩,
   ⟨"CH_31", .always, 3, bit8 7⟩,
   ⟨"CH_32", .always, 4, bit8 0⟩,
   ⟨"CH_33", .always, 4, bit8 1⟩,
   ⟨"CH_34", .always, 4, bit8 2⟩,
   ⟨"CH_35", .always, 4, bit8 3⟩,
   ⟨"CH_36", .always, 4, bit8 4⟩]

/-- Flags of `CommandFlags`: event/command.rs 430-1038. -/
def commandFlags : List ArrFlagDecl :=
  [⟨"INQUIRY", .always, 0, bit8 0⟩,
   ⟨"INQUIRY_CANCEL", .always, 0, bit8 1⟩,
   ⟨"PERIODIC_INQUIRY_MODE", .always, 0, bit8 2⟩,
   ⟨"EXIT_PERIODIC_INQUIRY_MODE", .always, 0, bit8 3⟩,
   ⟨"CREATE_CONNECTION", .always, 0, bit8 4⟩,
   ⟨"DISCONNECT", .always, 0, bit8 5⟩,
   ⟨"ADD_SCO_CONNECTION", .always, 0, bit8 6⟩,
   ⟨"CREATE_CONNECTION_CANCEL", .always, 0, bit8 7⟩,
   ⟨"ACCEPT_CONNECTION_REQUEST", .always, 1, bit8 0⟩,
   ⟨"REJECT_CONNECTION_REQUEST", .always, 1, bit8 1⟩,
   ⟨"LINK_KEY_REQUEST_REPLY", .always, 1, bit8 2⟩,
   ⟨"LINK_KEY_REQUEST_NEGATIVE_REPLY", .always, 1, bit8 3⟩,
   ⟨"PIN_CODE_REQUEST_REPLY", .always, 1, bit8 4⟩,
   ⟨"PIN_CODE_REQUEST_NEGATIVE_REPLY", .always, 1, bit8 5⟩,
   ⟨"CHANGE_CONNECTION_PACKET_TYPE", .always, 1, bit8 6⟩,
   ⟨"AUTHENTICATION_REQUESTED", .always, 1, bit8 7⟩,
   ⟨"SET_CONNECTION_ENCRYPTION", .always, 2, bit8 0⟩,
   ⟨"CHANGE_CONNECTION_LINK_KEY", .always, 2, bit8 1⟩,
   ⟨"MASTER_LINK_KEY", .always, 2, bit8 2⟩,
   ⟨"REMOTE_NAME_REQUEST", .always, 2, bit8 3⟩,
   ⟨"REMOTE_NAME_REQUEST_CANCEL", .always, 2, bit8 4⟩,
   ⟨"READ_REMOTE_SUPPORTED_FEATURES", .always, 2, bit8 5⟩,
   ⟨"READ_REMOTE_EXTENDED_FEATURES", .always, 2, bit8 6⟩,
   ⟨"READ_REMOTE_VERSION_INFORMATION", .always, 2, bit8 7⟩,
   ⟨"READ_CLOCK_OFFSET", .always, 3, bit8 0⟩,
   ⟨"READ_LMP_HANDLE", .always, 3, bit8 1⟩,
   ⟨"HOLD_MODE", .always, 4, bit8 1⟩,
   ⟨"SNIFF_MODE", .always, 4, bit8 2⟩,
   ⟨"EXIT_SNIFF_MODE", .always, 4, bit8 3⟩,
   ⟨"PARK_STATE", .always, 4, bit8 4⟩,
   ⟨"EXIT_PARK_STATE", .always, 4, bit8 5⟩,
   ⟨"QOS_SETUP", .always, 4, bit8 6⟩,
   ⟨"ROLE_DISCOVERY", .always, 4, bit8 7⟩,
   ⟨"SWITCH_ROLE", .always, 5, bit8 0⟩,
   ⟨"READ_LINK_POLICY_SETTINGS", .always, 5, bit8 1⟩,
   ⟨"WRITE_LINK_POLICY_SETTINGS", .always, 5, bit8 2⟩,
   ⟨"READ_DEFAULT_LINK_POLICY_SETTINGS", .always, 5, bit8 3⟩,
   ⟨"WRITE_DEFAULT_LINK_POLICY_SETTINGS", .always, 5, bit8 4⟩,
   ⟨"FLOW_SPECIFICATION", .always, 5, bit8 5⟩,
   ⟨"SET_EVENT_MASK", .always, 5, bit8 6⟩,
   ⟨"RESET", .always, 5, bit8 7⟩,
   ⟨"SET_EVENT_FILTER", .always, 6, bit8 0⟩,
   ⟨"FLUSH", .always, 6, bit8 1⟩,
   ⟨"READ_PIN_TYPE", .always, 6, bit8 2⟩,
   ⟨"WRITE_PIN_TYPE", .always, 6, bit8 3⟩,
   ⟨"CREATE_NEW_UNIT_KEY", .always, 6, bit8 4⟩,
   ⟨"READ_STORED_LINK_KEY", .always, 6, bit8 5⟩,
   ⟨"WRITE_STORED_LINK_KEY", .always, 6, bit8 6⟩,
   ⟨"DELETE_STORED_LINK_KEY", .always, 6, bit8 7⟩,
   ⟨"WRITE_LOCAL_NAME", .always, 7, bit8 0⟩,
   ⟨"READ_LOCAL_NAME", .always, 7, bit8 1⟩,
   ⟨"READ_CONNECTION_ACCEPT_TIMEOUT", .always, 7, bit8 2⟩,
   ⟨"WRITE_CONNECTION_ACCEPT_TIMEOUT", .always, 7, bit8 3⟩,
   ⟨"READ_PAGE_TIMEOUT", .always, 7, bit8 4⟩,
   ⟨"WRITE_PAGE_TIMEOUT", .always, 7, bit8 5⟩,
   ⟨"READ_SCAN_ENABLE", .always, 7, bit8 6⟩,
   ⟨"WRITE_SCAN_ENABLE", .always, 7, bit8 7⟩,
   ⟨"READ_PAGE_SCAN_ACTIVITY", .always, 8, bit8 0⟩,
   ⟨"WRITE_PAGE_SCAN_ACTIVITY", .always, 8, bit8 1⟩,
   ⟨"READ_INQUIRY_SCAN_ACTIVITY", .always, 8, bit8 2⟩,
   ⟨"WRITE_INQUIRY_SCAN_ACTIVITY", .always, 8, bit8 3⟩,
   ⟨"READ_AUTHENTICATION_ENABLE", .always, 8, bit8 4⟩,
   ⟨"WRITE_AUTHENTICATION_ENABLE", .always, 8, bit8 5⟩,
   ⟨"READ_ENCRYPTION_MODE", .always, 8, bit8 6⟩,
   ⟨"WRITE_ENCRYPTION_MODE", .always, 8, bit8 7⟩,
   ⟨"READ_CLASS_OF_DEVICE", .always, 9, bit8 0⟩,
   ⟨"WRITE_CLASS_OF_DEVICE", .always, 9, bit8 1⟩,
   ⟨"READ_VOICE_SETTING", .always, 9, bit8 2⟩,
   ⟨"WRITE_VOICE_SETTING", .always, 9, bit8 3⟩,
   ⟨"READ_AUTOMATIC_FLUSH_TIMEOUT", .always, 9, bit8 4⟩,
   ⟨"WRITE_AUTOMATIC_FLUSH_TIMEOUT", .always, 9, bit8 5⟩,
   ⟨"READ_NUM_BROADCAST_RETRANSMISSIONS", .always, 9, bit8 6⟩,
   ⟨"WRITE_NUM_BROADCAST_RETRANSMISSIONS", .always, 9, bit8 7⟩,
   ⟨"READ_HOLD_MODE_ACTIVITY", .always, 10, bit8 0⟩,
   ⟨"WRITE_HOLD_MODE_ACTIVITY", .always, 10, bit8 1⟩,
   ⟨"READ_TRANSMIT_POWER_LEVEL", .always, 10, bit8 2⟩,
   ⟨"READ_SYNCHRONOUS_FLOW_CONTROL_ENABLE", .always, 10, bit8 3⟩,
   ⟨"WRITE_SYNCHRONOUS_FLOW_CONTROL_ENABLE", .always, 10, bit8 4⟩,
   ⟨"SET_CONTROLLER_TO_HOST_FLOW_CONTROL", .always, 10, bit8 5⟩,
   ⟨"HOST_BUFFER_SIZE", .always, 10, bit8 6⟩,
   ⟨"HOST_NUMBER_OF_COMPLETED_PACKETS", .always, 10, bit8 7⟩,
   ⟨"READ_LINK_SUPERVISION_TIMEOUT", .always, 11, bit8 0⟩,
   ⟨"WRITE_LINK_SUPERVISION_TIMEOUT", .always, 11, bit8 1⟩,
   ⟨"READ_NUMBER_OF_SUPPORTED_IAC", .always, 11, bit8 2⟩,
   ⟨"READ_CURRENT_IAC_LAP", .always, 11, bit8 3⟩,
   ⟨"WRITE_CURRENT_IAC_LAP", .always, 11, bit8 4⟩,
   ⟨"READ_PAGE_SCAN_MODE_PERIOD", .always, 11, bit8 5⟩,
   ⟨"WRITE_PAGE_SCAN_MODE_PERIOD", .always, 11, bit8 6⟩,
   ⟨"READ_PAGE_SCAN_MODE", .always, 11, bit8 7⟩,
   ⟨"WRITE_PAGE_SCAN_MODE", .always, 12, bit8 0⟩,
   ⟨"SET_AFH_HOST_CHANNEL_CLASSIFICATION", .always, 12, bit8 1⟩,
   ⟨"READ_INQUIRY_SCAN_TYPE", .always, 12, bit8 4⟩,
   ⟨"WRITE_INQUIRY_SCAN_TYPE", .always, 12, bit8 5⟩,
   ⟨"READ_INQUIRY_MODE", .always, 12, bit8 6⟩,
   ⟨"WRITE_INQUIRY_MODE", .always, 12, bit8 7⟩,
   ⟨"READ_PAGE_SCAN_TYPE", .always, 13, bit8 0⟩,
   ⟨"WRITE_PAGE_SCAN_TYPE", .always, 13, bit8 1⟩,
   ⟨"READ_AFH_CHANNEL_ASSESSMENT_MODE", .always, 13, bit8 2⟩,
   ⟨"WRITE_AFH_CHANNEL_ASSESSMENT_MODE", .always, 13, bit8 3⟩,
   ⟨"READ_LOCAL_VERSION_INFORMATION", .always, 14, bit8 3⟩,
   ⟨"READ_LOCAL_SUPPORTED_FEATURES", .always, 14, bit8 5⟩,
   ⟨"READ_LOCAL_EXTENDED_FEATURES", .always, 14, bit8 6⟩,
   ⟨"READ_BUFFER_SIZE", .always, 14, bit8 7⟩,
   ⟨"READ_COUNTRY_CODE", .always, 15, bit8 0⟩,
   ⟨"READ_BD_ADDR", .always, 15, bit8 1⟩,
   ⟨"READ_FAILED_CONTACT_COUNTER", .always, 15, bit8 2⟩,
   ⟨"RESET_FAILED_CONTACT_COUNTER", .always, 15, bit8 3⟩,
   ⟨"READ_LINK_QUALITY", .always, 15, bit8 4⟩,
   ⟨"READ_RSSI", .always, 15, bit8 5⟩,
   ⟨"READ_AFH_CHANNEL_MAP", .always, 15, bit8 6⟩,
   ⟨"READ_CLOCK", .always, 15, bit8 7⟩,
   ⟨"READ_LOOPBACK_MODE", .always, 16, bit8 0⟩,
   ⟨"WRITE_LOOPBACK_MODE", .always, 16, bit8 1⟩,
   ⟨"ENABLE_DEVICE_UNDER_TEST_MODE", .always, 16, bit8 2⟩,
   ⟨"SETUP_SYNCHRONOUS_CONNECTION_REQUEST", .always, 16, bit8 3⟩,
   ⟨"ACCEPT_SYNCHRONOUS_CONNECTION_REQUEST", .always, 16, bit8 4⟩,
   ⟨"REJECT_SYNCHRONOUS_CONNECTION_REQUEST", .always, 16, bit8 5⟩,
   ⟨"READ_EXTENDED_INQUIRY_RESPONSE", .always, 17, bit8 0⟩,
   ⟨"WRITE_EXTENDED_INQUIRY_RESPONSE", .always, 17, bit8 1⟩,
   ⟨"REFRESH_ENCRYPTION_KEY", .always, 17, bit8 2⟩,
   ⟨"SNIFF_SUBRATING", .always, 17, bit8 4⟩,
   ⟨"READ_SIMPLE_PAIRING_MODE", .always, 17, bit8 5⟩,
   ⟨"WRITE_SIMPLE_PAIRING_MODE", .always, 17, bit8 6⟩,
   ⟨"READ_LOCAL_OOB_DATA", .always, 17, bit8 7⟩,
   ⟨"READ_INQUIRY_RESPONSE_TRANSMIT_POWER_LEVEL", .always, 18, bit8 0⟩,
   ⟨"WRITE_INQUIRY_TRANSMIT_POWER_LEVEL", .always, 18, bit8 1⟩,
   ⟨"READ_DEFAULT_ERRONEOUS_DATA_REPORTING", .always, 18, bit8 2⟩,
   ⟨"WRITE_DEFAULT_ERRONEOUS_DATA_REPORTING", .always, 18, bit8 3⟩,
   ⟨"IO_CAPABILITY_REQUEST_REPLY", .always, 18, bit8 7⟩,
   ⟨"USER_CONFIRMATION_REQUEST_REPLY", .always, 19, bit8 0⟩,
   ⟨"USER_CONFIRMATION_REQUEST_NEGATIVE_REPLY", .always, 19, bit8 1⟩,
   ⟨"USER_PASSKEY_REQUEST_REPLY", .always, 19, bit8 2⟩,
   ⟨"USER_PASSKEY_REQUEST_NEGATIVE_REPLY", .always, 19, bit8 3⟩,
   ⟨"REMOTE_OOB_DATA_REQUEST_REPLY", .always, 19, bit8 4⟩,
   ⟨"WRITE_SIMPLE_PAIRING_DEBUG_MODE", .always, 19, bit8 5⟩,
   ⟨"ENHANCED_FLUSH", .always, 19, bit8 6⟩,
   ⟨"REMOTE_OOB_DATA_REQUEST_NEGATIVE_REPLY", .always, 19, bit8 7⟩,
   ⟨"SEND_KEYPRESS_NOTIFICATION", .always, 20, bit8 2⟩,
   ⟨"IO_CAPABILITY_REQUEST_NEGATIVE_REPLY", .always, 20, bit8 3⟩,
   ⟨"READ_ENCRYPTION_KEY_SIZE", .always, 20, bit8 4⟩,
   ⟨"CREATE_PHYSICAL_LINK", .always, 21, bit8 0⟩,
   ⟨"ACCEPT_PHYSICAL_LINK", .always, 21, bit8 1⟩,
   ⟨"DISCONNECT_PHYSICAL_LINK", .always, 21, bit8 2⟩,
   ⟨"CREATE_LOGICAL_LINK", .always, 21, bit8 3⟩,
   ⟨"ACCEPT_LOGICAL_LINK", .always, 21, bit8 4⟩,
   ⟨"DISCONNECT_LOGICAL_LINK", .always, 21, bit8 5⟩,
   ⟨"LOGICAL_LINK_CANCEL", .always, 21, bit8 6⟩,
   ⟨"FLOW_SPEC_MODIFY", .always, 21, bit8 7⟩,
   ⟨"READ_LOGICAL_LINK_ACCEPT_TIMEOUT", .always, 22, bit8 0⟩,
   ⟨"WRITE_LOGICAL_LINK_ACCEPT_TIMEOUT", .always, 22, bit8 1⟩,
   ⟨"SET_EVENT_MASK_PAGE_2", .always, 22, bit8 2⟩,
   ⟨"READ_LOCATION_DATA", .always, 22, bit8 3⟩,
   ⟨"WRITE_LOCATION_DATA", .always, 22, bit8 4⟩,
   ⟨"READ_LOCAL_AMP_INFO", .always, 22, bit8 5⟩,
   ⟨"READ_LOCAL_AMP_ASSOC", .always, 22, bit8 6⟩,
   ⟨"WRITE_REMOTE_AMP_ASSOC", .always, 22, bit8 7⟩,
   ⟨"READ_FLOW_CONTROL_MODE", .always, 23, bit8 0⟩,
   ⟨"WRITE_FLOW_CONTROL_MODE", .always, 23, bit8 1⟩,
   ⟨"READ_DATA_BLOCK_SIZE", .always, 23, bit8 2⟩,
   ⟨"ENABLE_AMP_RECEIVER_REPORTS", .always, 23, bit8 5⟩,
   ⟨"AMP_TEST_END", .always, 23, bit8 6⟩,
   ⟨"AMP_TEST", .always, 23, bit8 7⟩,
   ⟨"READ_ENHANCED_TRANSMIT_POWER_LEVEL", .always, 24, bit8 0⟩,
   ⟨"READ_BEST_EFFORT_FLUSH_TIMEOUT", .always, 24, bit8 2⟩,
   ⟨"WRITE_BEST_EFFORT_FLUSH_TIMEOUT", .always, 24, bit8 3⟩,
   ⟨"SHORT_RANGE_MODE", .always, 24, bit8 4⟩,
   ⟨"READ_LE_HOST_SUPPORT", .always, 24, bit8 5⟩,
   ⟨"WRITE_LE_HOST_SUPPORT", .always, 24, bit8 6⟩,
   ⟨"LE_SET_EVENT_MASK", .always, 25, bit8 0⟩,
   ⟨"LE_READ_BUFFER_SIZE", .always, 25, bit8 1⟩,
   ⟨"LE_READ_LOCAL_SUPPORTED_FEATURES", .always, 25, bit8 2⟩,
   ⟨"LE_SET_RANDOM_ADDRESS", .always, 25, bit8 4⟩,
   ⟨"LE_SET_ADVERTISING_PARAMETERS", .always, 25, bit8 5⟩,
   ⟨"LE_READ_ADVERTISING_CHANNEL_TX_POWER", .always, 25, bit8 6⟩,
   ⟨"LE_SET_ADVERTISING_DATA", .always, 25, bit8 7⟩,
   ⟨"LE_SET_SCAN_RESPONSE_DATA", .always, 26, bit8 0⟩,
   ⟨"LE_SET_ADVERTISE_ENABLE", .always, 26, bit8 1⟩,
   ⟨"LE_SET_SCAN_PARAMETERS", .always, 26, bit8 2⟩,
   ⟨"LE_SET_SCAN_ENABLE", .always, 26, bit8 3⟩,
   ⟨"LE_CREATE_CONNECTION", .always, 26, bit8 4⟩,
   ⟨"LE_CREATE_CONNECTION_CANCEL", .always, 26, bit8 5⟩,
   ⟨"LE_READ_WHITE_LIST_SIZE", .always, 26, bit8 6⟩,
   ⟨"LE_CLEAR_WHITE_LIST", .always, 26, bit8 7⟩,
   ⟨"LE_ADD_DEVICE_TO_WHITE_LIST", .always, 27, bit8 0⟩,
   ⟨"LE_REMOVE_DEVICE_FROM_WHITE_LIST", .always, 27, bit8 1⟩,
   ⟨"LE_CONNECTION_UPDATE", .always, 27, bit8 2⟩,
   ⟨"LE_SET_HOST_CHANNEL_CLASSIFICATION", .always, 27, bit8 3⟩,
   ⟨"LE_READ_CHANNEL_MAP", .always, 27, bit8 4⟩,
   ⟨"LE_READ_REMOTE_USED_FEATURES", .always, 27, bit8 5⟩,
   ⟨"LE_ENCRYPT", .always, 27, bit8 6⟩,
   ⟨"LE_RAND", .always, 27, bit8 7⟩,
   ⟨"LE_START_ENCRYPTION", .always, 28, bit8 0⟩,
   ⟨"LE_LONG_TERM_KEY_REQUEST_REPLY", .always, 28, bit8 1⟩,
   ⟨"LE_LONG_TERM_KEY_REQUEST_NEGATIVE_REPLY", .always, 28, bit8 2⟩,
   ⟨"LE_READ_SUPPORTED_STATES", .always, 28, bit8 3⟩,
   ⟨"LE_RECEIVER_TEST", .always, 28, bit8 4⟩,
   ⟨"LE_TRANSMITTER_TEST", .always, 28, bit8 5⟩,
   ⟨"LE_TEST_END", .always, 28, bit8 6⟩,
   ⟨"ENHANCED_SETUP_SYNCHRONOUS_CONNECTION", .always, 29, bit8 3⟩,
   ⟨"ENHANCED_ACCEPT_SYNCHRONOUS_CONNECTION", .always, 29, bit8 4⟩,
   ⟨"READ_LOCAL_SUPPORTED_CODECS", .always, 29, bit8 5⟩,
   ⟨"SET_MWS_CHANNEL_PARAMETERS_COMMAND", .always, 29, bit8 6⟩,
   ⟨"SET_EXTERNAL_FRAME_CONFIGURATION_COMMAND", .always, 29, bit8 7⟩,
   ⟨"SET_MWS_SIGNALING_COMMAND", .always, 30, bit8 0⟩,
   ⟨"SET_TRANSPORT_LAYER_COMMAND", .always, 30, bit8 1⟩,
   ⟨"SET_MWS_SCAN_FREQUENCY_TABLE_COMMAND", .always, 30, bit8 2⟩,
   ⟨"GET_TRANSPORT_LAYER_CONFIGURATION_COMMAND", .always, 30, bit8 3⟩,
   ⟨"SET_MWS_PATTERN_CONFIGURATION_COMMAND", .always, 30, bit8 4⟩,
   ⟨"SET_TRIGGERED_CLOCK_CAPTURE", .always, 30, bit8 5⟩,
   ⟨"TRUNCATED_PAGE", .always, 30, bit8 6⟩,
   ⟨"TRUNCATED_PAGE_CANCEL", .always, 30, bit8 7⟩,
   ⟨"SET_CONNECTIONLESS_PERIPHERAL_BROADCAST", .always, 31, bit8 0⟩,
   ⟨"SET_CONNECTIONLESS_PERIPHERAL_BROADCAST_RECEIVE", .always, 31, bit8 1⟩,
   ⟨"START_SYNCHRONIZATION_TRAIN", .always, 31, bit8 2⟩,
   ⟨"RECEIVE_SYNCHRONIZATION_TRAIN", .always, 31, bit8 3⟩,
   ⟨"SET_CONNECTIONLESS_PERIPHERAL_BROADCAST_DATA", .always, 31, bit8 6⟩,
   ⟨"READ_SYNCHRONIZATION_TRAIN_PARAMETERS", .always, 31, bit8 7⟩,
   ⟨"WRITE_SYNCHRONIZATION_TRAIN_PARAMETERS", .always, 32, bit8 0⟩,
   ⟨"REMOTE_OOB_EXTENDED_DATA_REQUEST_REPLY", .always, 32, bit8 1⟩,
   ⟨"READ_SECURE_CONNECTIONS_HOST_SUPPORT", .always, 32, bit8 2⟩,
   ⟨"WRITE_SECURE_CONNECTIONS_HOST_SUPPORT", .always, 32, bit8 3⟩,
   ⟨"READ_AUTHENTICATED_PAYLOAD_TIMEOUT", .always, 32, bit8 4⟩,
   ⟨"WRITE_AUTHENTICATED_PAYLOAD_TIMEOUT", .always, 32, bit8 5⟩,
   ⟨"READ_LOCAL_OOB_EXTENDED_DATA", .always, 32, bit8 6⟩,
   ⟨"WRITE_SECURE_CONNECTIONS_TEST_MODE", .always, 32, bit8 7⟩,
   ⟨"READ_EXTENDED_PAGE_TIMEOUT", .always, 33, bit8 0⟩,
   ⟨"WRITE_EXTENDED_PAGE_TIMEOUT", .always, 33, bit8 1⟩,
   ⟨"READ_EXTENDED_INQUIRY_LENGTH", .always, 33, bit8 2⟩,
   ⟨"WRITE_EXTENDED_INQUIRY_LENGTH", .always, 33, bit8 3⟩,
   ⟨"LE_REMOTE_CONNECTION_PARAMETER_REQUEST_REPLY_COMMAND", .always, 33, bit8 4⟩,
   ⟨"LE_REMOTE_CONNECTION_PARAMETER_REQUEST_NEGATIVE_REPLY_COMMAND", .always, 33, bit8 5⟩,
   ⟨"LE_SET_DATA_LENGTH", .any42, 33, bit8 6⟩,
   ⟨"LE_READ_SUGGESTED_DEFAULT_DATA_LENGTH", .any42, 33, bit8 7⟩,
   ⟨"LE_WRITE_SUGGESTED_DEFAULT_DATA_LENGTH", .any42, 34, bit8 0⟩,
   ⟨"LE_READ_LOCAL_P256_PUBLIC_KEY", .any42, 34, bit8 1⟩,
   ⟨"LE_GENERATE_DH_KEY", .any42, 34, bit8 2⟩,
   ⟨"LE_ADD_DEVICE_TO_RESOLVING_LIST", .any42, 34, bit8 3⟩,
   ⟨"LE_REMOVE_DEVICE_FROM_RESOLVING_LIST", .any42, 34, bit8 4⟩,
   ⟨"LE_CLEAR_RESOLVING_LIST", .any42, 34, bit8 5⟩,
   ⟨"LE_READ_RESOLVING_LIST_SIZE", .any42, 34, bit8 6⟩,
   ⟨"LE_READ_PEER_RESOLVABLE_ADDRESS", .any42, 34, bit8 7⟩,
   ⟨"LE_READ_LOCAL_RESOLVABLE_ADDRESS", .any42, 35, bit8 0⟩,
   ⟨"LE_SET_ADDRESS_RESOLUTION_ENABLE", .any42, 35, bit8 1⟩,
   ⟨"LE_SET_RESOLVABLE_PRIVATE_ADDRESS_TIMEOUT", .any42, 35, bit8 2⟩,
   ⟨"LE_READ_MAXIMUM_DATA_LENGTH", .any42, 35, bit8 3⟩,
   ⟨"LE_READ_PHY_COMMAND", .only50, 35, bit8 4⟩,
   ⟨"LE_SET_DEFAULT_PHY_COMMAND", .only50, 35, bit8 5⟩,
   ⟨"LE_SET_PHY_COMMAND", .only50, 35, bit8 6⟩,
   ⟨"LE_ENHANCED_RECEIVER_TEST_COMMAND", .only50, 35, bit8 7⟩,
   ⟨"LE_ENHANCED_TRANSMITTER_TEST_COMMAND", .only50, 36, bit8 0⟩,
   ⟨"LE_SET_ADVERTISING_SET_RANDOM_ADDRESS_COMMAND", .only50, 36, bit8 1⟩,
   ⟨"LE_SET_EXTENDED_ADVERTISING_PARAMETERS_COMMAND", .only50, 36, bit8 2⟩,
   ⟨"LE_SET_EXTENDED_ADVERTISING_DATA_COMMAND", .only50, 36, bit8 3⟩,
   ⟨"LE_SET_EXTENDED_SCAN_RESPONSE_DATA_COMMAND", .only50, 36, bit8 4⟩,
   ⟨"LE_SET_EXTENDED_ADVERTISING_ENABLE_COMMAND", .only50, 36, bit8 5⟩,
   ⟨"LE_READ_MAXIMUM_ADVERTISING_DATA_LENGTH_COMMAND", .only50, 36, bit8 6⟩,
   ⟨"LE_READ_NUMBER_OF_SUPPORTED_ADVERTISING_SETS_COMMAND", .only50, 36, bit8 7⟩,
   ⟨"LE_REMOVE_ADVERTISING_SET_COMMAND", .only50, 37, bit8 0⟩,
   ⟨"LE_CLEAR_ADVERTISING_SETS_COMMAND", .only50, 37, bit8 1⟩,
   ⟨"LE_SET_PERIODIC_ADVERTISING_PARAMETERS_COMMAND", .only50, 37, bit8 2⟩,
   ⟨"LE_SET_PERIODIC_ADVERTISING_DATA_COMMAND", .only50, 37, bit8 3⟩,
   ⟨"LE_SET_PERIODIC_ADVERTISING_ENABLE_COMMAND", .only50, 37, bit8 4⟩,
   ⟨"LE_SET_EXTENDED_SCAN_PARAMETERS_COMMAND", .only50, 37, bit8 5⟩,
   ⟨"LE_SET_EXTENDED_SCAN_ENABLE_COMMAND", .only50, 37, bit8 6⟩,
   ⟨"LE_EXTENDED_CREATE_CONNECTION_COMMAND", .only50, 37, bit8 7⟩,
   ⟨"LE_PERIODIC_ADVERTISING_CREATE_SYNC_COMMAND", .only50, 38, bit8 0⟩,
   ⟨"LE_PERIODIC_ADVERTISING_CREATE_SYNC_CANCEL_COMMAND", .only50, 38, bit8 1⟩,
   ⟨"LE_PERIODIC_ADVERTISING_TERMINATE_SYNC_COMMAND", .only50, 38, bit8 2⟩,
   ⟨"LE_ADD_DEVICE_TO_PERIODIC_ADVERTISER_LIST_COMMAND", .only50, 38, bit8 3⟩,
   ⟨"LE_REMOVE_DEVICE_FROM_PERIODIC_ADVERTISER_LIST_COMMAND", .only50, 38, bit8 4⟩,
   ⟨"LE_CLEAR_PERIODIC_ADVERTISER_LIST_COMMAND", .only50, 38, bit8 5⟩,
   ⟨"LE_READ_PERIODIC_ADVERTISER_LIST_SIZE_COMMAND", .only50, 38, bit8 6⟩,
   ⟨"LE_READ_TRANSMIT_POWER_COMMAND", .only50, 38, bit8 7⟩,
   ⟨"LE_READ_RF_PATH_COMPENSATION_COMMAND", .only50, 39, bit8 0⟩,
   ⟨"LE_WRITE_RF_PATH_COMPENSATION_COMMAND", .only50, 39, bit8 1⟩,
   ⟨"LE_SET_PRIVACY_MODE", .only50, 39, bit8 2⟩]

end Bt
