import Verif.Model.BitflagArray

/-! # Bit positions assigned by the Bluetooth standard

Transcribed from the tables of the Core Specification (version 5.0; Vol 2 Part E and Vol 6 Part B for the
link-layer features), in the order of the bits: the position in a list is the bit number, `""` is a bit
without a meaning. Nothing here refers to the masks written in the crate. The names are the crate's. -/

namespace Spec

open Bt

/-! ## Which bits have a meaning -/

/-- The crate is compiled for version 4.2 or later. -/
def From42 (c : Cfg) : Prop := c.v42 = true ∨ c.v50 = true

/-- The crate is compiled for version 5.0. -/
def From50 (c : Cfg) : Prop := c.v50 = true

instance (c : Cfg) : Decidable (From42 c) := by unfold From42; infer_instance
instance (c : Cfg) : Decidable (From50 c) := by unfold From50; infer_instance

/-- Supported Commands (Vol 2 Part E 6.27): the defined bits of octets 0, 1, 2, … in version 4.1. -/
def commandOctets41 : List Nat :=
  [0xFF, 0xFF, 0xFF, 0x03, 0xFE, 0xFF, 0xFF, 0xFF, 0xFF, 0xFF, 0xFF, 0xFF, 0xF3, 0x0F, 0xE8, 0xFF,
   0x3F, 0xF7, 0x8F, 0xFF, 0x1C, 0xFF, 0xFF, 0xE7, 0x7D, 0xF7, 0xFF, 0xFF, 0x7F, 0xF8, 0xFF, 0xCF,
   0xFF, 0x3F]

/-- The bits added by version 4.2: octets 33 to 35. -/
def commandOctets42 : List Nat := List.replicate 33 0 ++ [0xC0, 0xFF, 0x0F]

/-- The bits added by version 5.0: octets 35 to 39. -/
def commandOctets50 : List Nat := List.replicate 35 0 ++ [0xF0, 0xFF, 0xFF, 0xFF, 0x07]

/-- Bit `j` of octet `i` is set in the octets `l`. -/
def InOctets (l : List Nat) (i j : Nat) : Prop := j < 8 ∧ (l.getD i 0).testBit j = true

instance (l : List Nat) (i j : Nat) : Decidable (InOctets l i j) := by unfold InOctets; infer_instance

/-- Bit `j` of octet `i` of Supported Commands denotes a command. -/
def CommandBit (c : Cfg) (i j : Nat) : Prop :=
  InOctets commandOctets41 i j ∨ (From42 c ∧ InOctets commandOctets42 i j) ∨
    (From50 c ∧ InOctets commandOctets50 i j)

/-- Bit `j` of octet `i` of a channel map denotes one of the 37 data channels. -/
def ChannelBit (i j : Nat) : Prop := j < 8 ∧ 8 * i + j < 37

/-- Bit `j` of the LMP features (Vol 2 Part C 3.3, page 0) denotes a feature. -/
def LmpFeatureBit (j : Nat) : Prop := j < 64 ∧ j ∉ [8, 24, 34, 50, 55, 59, 60, 61, 62]

/-- Bit `j` of the LE features (Vol 6 Part B 4.6) denotes a feature. -/
def LeFeatureBit (c : Cfg) (j : Nat) : Prop := j < 5 ∨ (From42 c ∧ j < 8) ∨ (From50 c ∧ j < 17)

/-- Bit `j` of LE States (Vol 2 Part E 7.8.27) denotes a state combination. -/
def LeStateBit (j : Nat) : Prop := j < 42

/-- Bit `j` of the event mask (Vol 2 Part E 7.3.1) denotes an event. -/
def EventMaskBit (j : Nat) : Prop := j < 62 ∧ j ∉ [13, 14, 18, 54, 57] ∧ ¬ (35 ≤ j ∧ j ≤ 42)

/-- Bit `j` of the LE event mask (Vol 2 Part E 7.8.1) denotes an LE event. -/
def LeEventMaskBit (c : Cfg) (j : Nat) : Prop := j < 6 ∨ (From42 c ∧ j < 11) ∨ (From50 c ∧ j < 20)

/-- Bit `j` of an advertising channel map denotes one of the channels 37, 38, 39. -/
def AdvertisingChannelBit (j : Nat) : Prop := j < 3

instance (c : Cfg) (i j : Nat) : Decidable (CommandBit c i j) := by unfold CommandBit; infer_instance
instance (i j : Nat) : Decidable (ChannelBit i j) := by unfold ChannelBit; infer_instance
instance (j : Nat) : Decidable (LmpFeatureBit j) := by unfold LmpFeatureBit; infer_instance
instance (c : Cfg) (j : Nat) : Decidable (LeFeatureBit c j) := by unfold LeFeatureBit; infer_instance
instance (j : Nat) : Decidable (LeStateBit j) := by unfold LeStateBit; infer_instance
instance (j : Nat) : Decidable (EventMaskBit j) := by unfold EventMaskBit; infer_instance
instance (c : Cfg) (j : Nat) : Decidable (LeEventMaskBit c j) := by unfold LeEventMaskBit; infer_instance
instance (j : Nat) : Decidable (AdvertisingChannelBit j) := by unfold AdvertisingChannelBit; infer_instance

/-! ## What the bits are called -/

/-- LE features, as named by `LinkLayerFeature`. -/
def linkLayerNames : List String :=
  ["LE_ENCRYPTION", "CONNECTION_PARAMETERS_REQUEST_PROCEDURE", "EXTENDED_REJECT_INDICATION",
   "PERIPHERAL_INITIATED_FEATURES_EXCHANGE", "LE_PING", "LE_DATA_PACKET_LENGTH_EXTENSION",
   "LL_PRIVACY", "EXTENDED_SCANNER_FILTER_POLICIES", "LE_2M_PHY", "STABLE_MODULATION_INDEX_TX",
   "STABLE_MODULATION_INDEX_RX", "LE_CODED_PHY", "LE_EXTENDED_ADVERTISING",
   "LE_PERIODIC_ADVERTISING", "CHANNEL_SELECTION_ALGORITHM_2", "LE_POWER_CLASS_1",
   "MINIMUM_NUMBER_OF_USED_CHANNELS_PROCEDURE"]

/-- LMP features. -/
def lmpNames : List String :=
  ["THREE_SLOT_PACKETS", "FIVE_SLOT_PACKETS", "ENCRYPTION", "SLOT_OFFSET", "TIMING_ACCURACY",
   "ROLE_SWITCH", "HOLD_MODE", "SNIFF_MODE", "", "POWER_CONTROL_REQUESTS",
   "CHANNEL_QUALITY_DRIVEN_DATA_RATE_CQDDR", "SCO_LINK", "HV2_PACKETS", "HV3_PACKETS",
   "MU_LAW_LOG_SYNCHRONOUS_DATA", "A_LAW_LOG_SYNCHRONOUS_DATA", "CVSD_SYNCHRONOUS_DATA",
   "PAGING_PARAMETER_NEGOTIATION", "POWER_CONTROL", "TRANSPARENT_SYNCHRONOUS_DATA",
   "FLOW_CONTROL_LAG_LSB", "FLOW_CONTROL_LAG_MID", "FLOW_CONTROL_LAG_MSB", "BROADCAST_ENCRYPTION",
   "", "ENHANCED_DATA_RATE_ACL_2_MB_PER_S_MODE", "ENHANCED_DATA_RATE_ACL_3_MB_PER_S_MODE",
   "ENHANCED_INQUIRY_SCAN", "INTERLACED_INQUIRY_SCAN", "INTERLACED_PAGE_SCAN",
   "RSSI_WITH_INQUIRY_RESULTS", "EXTENDED_SCO_LINK_EV3_PACKETS", "EV4_PACKETS", "EV5_PACKETS", "",
   "AFH_CAPABLE_PERIPHERAL", "AFH_CLASSIFICATION_PERIPHERAL", "BR_EDR_NOT_SUPPORTED",
   "LE_SUPPORTED_BY_CONTROLLER", "THREE_SLOT_ENHANCED_DATA_RATE_ACL_PACKETS",
   "FIVE_SLOT_ENHANCED_DATA_RATE_ACL_PACKETS", "SNIFF_SUBRATING", "PAUSE_ENCRYPTION",
   "AFH_CAPABLE_CENTRAL_DEVICE", "AFH_CLASSIFICATION_CENTRAL_DEVICE",
   "ENHANCED_DATA_RATE_ESCO_2_MB_PER_S_MODE", "ENHANCED_DATA_RATE_ESCO_3_MB_PER_S_MODE",
   "THREE_SLOT_ENHANCED_DATA_RATE_ESCO_PACKETS", "EXTENDED_INQUIRY_RESPONSE",
   "SIMULTANEOUS_LE_AND_BR_EDR_TO_SAME_DEVICE_CAPABLE", "", "SECURE_SIMPLE_PAIRING",
   "ENCAPSULATED_PDU", "ERRONEOUS_DATA_REPORTING", "NON_FLUSHABLE_PACKET_BOUNDARY_FLAG", "",
   "LINK_SUPERVISION_TIMEOUT_CHANGED_EVENT", "INQUIRY_TX_POWER_LEVEL", "ENHANCED_POWER_CONTROL",
   "", "", "", "", "EXTENDED_FEATURES"]

/-- LE features, as named by `LeFeatures`. -/
def leFeatureNames : List String :=
  ["ENCRYPTION", "CONNECTION_PARAMETERS_REQUEST_PROCEDURE", "EXTENDED_REJECT_INDICATION",
   "PERIPHERALINITIATED_FEATURES_EXCHANGE", "PING", "DATA_PACKET_LENGTH_EXTENSION", "LL_PRIVACY",
   "EXTENDED_SCANNER_FILTER_POLICIES", "PHY_2M", "STABLE_MODULATION_INDEX_TX",
   "STABLE_MODULATION_INDEX_RX", "CODED_PHY", "EXTENDED_ADVERTISING", "PERIODIC_ADVERTISING",
   "CHANNEL_SELECTION_ALGORITHM_2", "POWER_CLASS_1", "MINIMUM_NUMBER_OF_USED_CHANNELS_PROCEDURE"]

/-- LE States. -/
def leStateNames : List String :=
  ["NON_CONNECTABLE_ADVERTISING", "SCANNABLE_ADVERTISING", "CONNECTABLE_ADVERTISING",
   "DIRECTED_ADVERTISING_HIGH_DUTY_CYCLE", "PASSIVE_SCANNING", "ACTIVE_SCANNING", "INITIATING",
   "PERIPHERAL_CONNECTION", "NONCONN_AD_AND_PASS_SCAN", "SCAN_AD_AND_PASS_SCAN",
   "CONN_AD_AND_PASS_SCAN", "DIR_AD_HDC_AND_PASS_SCAN", "NONCONN_AD_AND_ACT_SCAN",
   "SCAN_AD_AND_ACT_SCAN", "CONN_AD_AND_ACT_SCAN", "DIR_AD_HDC_AND_ACT_SCAN",
   "NONCONN_AD_AND_INITIATING", "SCAN_AD_AND_INITIATING", "NONCONN_AD_AND_CENTRAL_CONN",
   "SCAN_AD_AND_CENTRAL_CONN", "NONCONN_AD_AND_PERIPH_CONN", "SCAN_AD_AND_PERIPH_CONN",
   "PASS_SCAN_AND_INITIATING", "ACT_SCAN_AND_INITIATING", "PASS_SCAN_AND_CENTRAL_CONN",
   "ACT_SCAN_AND_CENTRAL_CONN", "PASS_SCAN_AND_PERIPH_CONN", "ACT_SCAN_AND_PERIPH_CONN",
   "INITIATING_AND_CENTRAL_CONN", "DIRECTED_ADVERTISING_LOW_DUTY_CYCLE",
   "DIR_AD_LDC_AND_PASS_SCAN", "DIR_AD_LDC_AND_ACT_SCAN", "CONN_AD_AND_INITIATING",
   "DIR_AD_HDC_AND_INITIATING", "DIR_AD_LDC_AND_INITIATING", "CONN_AD_AND_CENTRAL_CONN",
   "DIR_AD_HDC_AND_CENTRAL_CONN", "DIR_AD_LDC_AND_CENTRAL_CONN", "CONN_AD_AND_PERIPH_CONN",
   "DIR_AD_HDC_AND_PERIPH_CONN", "DIR_AD_LDC_AND_PERIPH_CONN", "INITIATING_AND_PERIPH_CONN"]

/-- Event mask. -/
def eventMaskNames : List String :=
  ["INQUIRY_COMPLETE", "INQUIRY_RESULT", "CONNECTION_COMPLETE", "CONNECTION_REQUEST",
   "DISCONNECTION_COMPLETE", "AUTHENTICATION_COMPLETE", "REMOTE_NAME_REQUEST_COMPLETE",
   "ENCRYPTION_CHANGE", "CHANGE_CONNECTION_LINK_KEY_COMPLETE", "MASTER_LINK_KEY_COMPLETE",
   "READ_REMOTE_SUPPORTED_FEATURES_COMPLETE", "READ_REMOTE_VERSION_INFORMATION_COMPLETE",
   "QOS_SETUP_COMPLETE", "", "", "HARDWARE_ERROR", "FLUSH_OCCURRED", "ROLE_CHANGE", "",
   "MODE_CHANGE", "RETURN_LINK_KEYS", "PIN_CODE_REQUEST", "LINK_KEY_REQUEST",
   "LINK_KEY_NOTIFICATION", "LOOPBACK_COMMAND", "DATA_BUFFER_OVERFLOW", "MAX_SLOTS_CHANGE",
   "READ_CLOCK_OFFSET_COMPLETE", "CONNECTION_PACKET_TYPE_CHANGED", "QOS_VIOLATION",
   "PAGE_SCAN_MODE_CHANGE", "PAGE_SCAN_REPETITION_MODE_CHANGE", "FLOW_SPECIFICATION_COMPLETE",
   "INQUIRY_RESULT_WITH_RSSI", "READ_REMOTE_EXTENDED_FEATURES_COMPLETE", "", "", "", "", "", "",
   "", "", "SYNCHRONOUS_CONNECTION_COMPLETE", "SYNCHRONOUS_CONNECTION_CHANGED", "SNIFF_SUBRATING",
   "EXTENDED_INQUIRY_RESULT", "ENCRYPTION_KEY_REFRESH_COMPLETE", "IO_CAPABILITY_REQUEST",
   "IO_CAPABILITY_REQUEST_REPLY", "USER_CONFIRMATION_REQUEST", "USER_PASSKEY_REQUEST",
   "REMOTE_OOB_DATA_REQUEST", "SIMPLE_PAIRING_COMPLETE", "", "LINK_SUPERVISION_TIMEOUT_CHANGED",
   "ENHANCED_FLUSH_COMPLETE", "", "USER_PASSKEY_NOTIFICATION", "KEYPRESS_NOTIFICATION",
   "REMOTE_HOST_SUPPORTED_FEATURES_NOTIFICATION", "LE_META_EVENT"]

/-- LE event mask. -/
def leEventMaskNames : List String :=
  ["CONNECTION_COMPLETE", "ADVERTISING_REPORT", "CONNECTION_UPDATE_COMPLETE",
   "READ_REMOTE_FEATURES_COMPLETE", "LONG_TERM_KEY_REQUEST", "REMOTE_CONNECTION_PARAMETER_REQUEST",
   "DATA_LENGTH_CHANGE", "READ_LOCAL_P256_PUBLIC_KEY_COMPLETE", "GENERATE_DHKEY_COMPLETE",
   "ENHANCED_CONNECTION_COMPLETE", "DIRECTED_ADVERTISING_REPORT", "PHY_UPDATE_COMPLETE",
   "EXTENDED_ADVERTISING_REPORT", "PERIODIC_ADVERTISING_SYNC_ESTABLISHED",
   "PERIODIC_ADVERTISING_REPORT", "PERIODIC_ADVERTISING_SYNC_LOST", "EXTENDED_SCAN_TIMEOUT",
   "EXTENDED_ADVERTISING_SET_TERMINATED", "SCAN_REQUEST_RECEIVED", "CHANNEL_SELECTION_ALGORITHM"]

/-- Advertising channel map. -/
def advertisingChannelNames : List String :=
  ["CH_37", "CH_38", "CH_39"]

/-- Supported Commands, octet by octet. -/
def commandNames : List (List String) :=
  [["INQUIRY", "INQUIRY_CANCEL", "PERIODIC_INQUIRY_MODE", "EXIT_PERIODIC_INQUIRY_MODE",
    "CREATE_CONNECTION", "DISCONNECT", "ADD_SCO_CONNECTION", "CREATE_CONNECTION_CANCEL"],
   ["ACCEPT_CONNECTION_REQUEST", "REJECT_CONNECTION_REQUEST", "LINK_KEY_REQUEST_REPLY",
    "LINK_KEY_REQUEST_NEGATIVE_REPLY", "PIN_CODE_REQUEST_REPLY", "PIN_CODE_REQUEST_NEGATIVE_REPLY",
    "CHANGE_CONNECTION_PACKET_TYPE", "AUTHENTICATION_REQUESTED"],
   ["SET_CONNECTION_ENCRYPTION", "CHANGE_CONNECTION_LINK_KEY", "MASTER_LINK_KEY",
    "REMOTE_NAME_REQUEST", "REMOTE_NAME_REQUEST_CANCEL", "READ_REMOTE_SUPPORTED_FEATURES",
    "READ_REMOTE_EXTENDED_FEATURES", "READ_REMOTE_VERSION_INFORMATION"],
   ["READ_CLOCK_OFFSET", "READ_LMP_HANDLE", "", "", "", "", "", ""],
   ["", "HOLD_MODE", "SNIFF_MODE", "EXIT_SNIFF_MODE", "PARK_STATE", "EXIT_PARK_STATE", "QOS_SETUP",
    "ROLE_DISCOVERY"],
   ["SWITCH_ROLE", "READ_LINK_POLICY_SETTINGS", "WRITE_LINK_POLICY_SETTINGS",
    "READ_DEFAULT_LINK_POLICY_SETTINGS", "WRITE_DEFAULT_LINK_POLICY_SETTINGS",
    "FLOW_SPECIFICATION", "SET_EVENT_MASK", "RESET"],
   ["SET_EVENT_FILTER", "FLUSH", "READ_PIN_TYPE", "WRITE_PIN_TYPE", "CREATE_NEW_UNIT_KEY",
    "READ_STORED_LINK_KEY", "WRITE_STORED_LINK_KEY", "DELETE_STORED_LINK_KEY"],
   ["WRITE_LOCAL_NAME", "READ_LOCAL_NAME", "READ_CONNECTION_ACCEPT_TIMEOUT",
    "WRITE_CONNECTION_ACCEPT_TIMEOUT", "READ_PAGE_TIMEOUT", "WRITE_PAGE_TIMEOUT",
    "READ_SCAN_ENABLE", "WRITE_SCAN_ENABLE"],
   ["READ_PAGE_SCAN_ACTIVITY", "WRITE_PAGE_SCAN_ACTIVITY", "READ_INQUIRY_SCAN_ACTIVITY",
    "WRITE_INQUIRY_SCAN_ACTIVITY", "READ_AUTHENTICATION_ENABLE", "WRITE_AUTHENTICATION_ENABLE",
    "READ_ENCRYPTION_MODE", "WRITE_ENCRYPTION_MODE"],
   ["READ_CLASS_OF_DEVICE", "WRITE_CLASS_OF_DEVICE", "READ_VOICE_SETTING", "WRITE_VOICE_SETTING",
    "READ_AUTOMATIC_FLUSH_TIMEOUT", "WRITE_AUTOMATIC_FLUSH_TIMEOUT",
    "READ_NUM_BROADCAST_RETRANSMISSIONS", "WRITE_NUM_BROADCAST_RETRANSMISSIONS"],
   ["READ_HOLD_MODE_ACTIVITY", "WRITE_HOLD_MODE_ACTIVITY", "READ_TRANSMIT_POWER_LEVEL",
    "READ_SYNCHRONOUS_FLOW_CONTROL_ENABLE", "WRITE_SYNCHRONOUS_FLOW_CONTROL_ENABLE",
    "SET_CONTROLLER_TO_HOST_FLOW_CONTROL", "HOST_BUFFER_SIZE", "HOST_NUMBER_OF_COMPLETED_PACKETS"],
   ["READ_LINK_SUPERVISION_TIMEOUT", "WRITE_LINK_SUPERVISION_TIMEOUT",
    "READ_NUMBER_OF_SUPPORTED_IAC", "READ_CURRENT_IAC_LAP", "WRITE_CURRENT_IAC_LAP",
    "READ_PAGE_SCAN_MODE_PERIOD", "WRITE_PAGE_SCAN_MODE_PERIOD", "READ_PAGE_SCAN_MODE"],
   ["WRITE_PAGE_SCAN_MODE", "SET_AFH_HOST_CHANNEL_CLASSIFICATION", "", "",
    "READ_INQUIRY_SCAN_TYPE", "WRITE_INQUIRY_SCAN_TYPE", "READ_INQUIRY_MODE", "WRITE_INQUIRY_MODE"],
   ["READ_PAGE_SCAN_TYPE", "WRITE_PAGE_SCAN_TYPE", "READ_AFH_CHANNEL_ASSESSMENT_MODE",
    "WRITE_AFH_CHANNEL_ASSESSMENT_MODE", "", "", "", ""],
   ["", "", "", "READ_LOCAL_VERSION_INFORMATION", "", "READ_LOCAL_SUPPORTED_FEATURES",
    "READ_LOCAL_EXTENDED_FEATURES", "READ_BUFFER_SIZE"],
   ["READ_COUNTRY_CODE", "READ_BD_ADDR", "READ_FAILED_CONTACT_COUNTER",
    "RESET_FAILED_CONTACT_COUNTER", "READ_LINK_QUALITY", "READ_RSSI", "READ_AFH_CHANNEL_MAP",
    "READ_CLOCK"],
   ["READ_LOOPBACK_MODE", "WRITE_LOOPBACK_MODE", "ENABLE_DEVICE_UNDER_TEST_MODE",
    "SETUP_SYNCHRONOUS_CONNECTION_REQUEST", "ACCEPT_SYNCHRONOUS_CONNECTION_REQUEST",
    "REJECT_SYNCHRONOUS_CONNECTION_REQUEST", "", ""],
   ["READ_EXTENDED_INQUIRY_RESPONSE", "WRITE_EXTENDED_INQUIRY_RESPONSE", "REFRESH_ENCRYPTION_KEY",
    "", "SNIFF_SUBRATING", "READ_SIMPLE_PAIRING_MODE", "WRITE_SIMPLE_PAIRING_MODE",
    "READ_LOCAL_OOB_DATA"],
   ["READ_INQUIRY_RESPONSE_TRANSMIT_POWER_LEVEL", "WRITE_INQUIRY_TRANSMIT_POWER_LEVEL",
    "READ_DEFAULT_ERRONEOUS_DATA_REPORTING", "WRITE_DEFAULT_ERRONEOUS_DATA_REPORTING", "", "", "",
    "IO_CAPABILITY_REQUEST_REPLY"],
   ["USER_CONFIRMATION_REQUEST_REPLY", "USER_CONFIRMATION_REQUEST_NEGATIVE_REPLY",
    "USER_PASSKEY_REQUEST_REPLY", "USER_PASSKEY_REQUEST_NEGATIVE_REPLY",
    "REMOTE_OOB_DATA_REQUEST_REPLY", "WRITE_SIMPLE_PAIRING_DEBUG_MODE", "ENHANCED_FLUSH",
    "REMOTE_OOB_DATA_REQUEST_NEGATIVE_REPLY"],
   ["", "", "SEND_KEYPRESS_NOTIFICATION", "IO_CAPABILITY_REQUEST_NEGATIVE_REPLY",
    "READ_ENCRYPTION_KEY_SIZE", "", "", ""],
   ["CREATE_PHYSICAL_LINK", "ACCEPT_PHYSICAL_LINK", "DISCONNECT_PHYSICAL_LINK",
    "CREATE_LOGICAL_LINK", "ACCEPT_LOGICAL_LINK", "DISCONNECT_LOGICAL_LINK", "LOGICAL_LINK_CANCEL",
    "FLOW_SPEC_MODIFY"],
   ["READ_LOGICAL_LINK_ACCEPT_TIMEOUT", "WRITE_LOGICAL_LINK_ACCEPT_TIMEOUT",
    "SET_EVENT_MASK_PAGE_2", "READ_LOCATION_DATA", "WRITE_LOCATION_DATA", "READ_LOCAL_AMP_INFO",
    "READ_LOCAL_AMP_ASSOC", "WRITE_REMOTE_AMP_ASSOC"],
   ["READ_FLOW_CONTROL_MODE", "WRITE_FLOW_CONTROL_MODE", "READ_DATA_BLOCK_SIZE", "", "",
    "ENABLE_AMP_RECEIVER_REPORTS", "AMP_TEST_END", "AMP_TEST"],
   ["READ_ENHANCED_TRANSMIT_POWER_LEVEL", "", "READ_BEST_EFFORT_FLUSH_TIMEOUT",
    "WRITE_BEST_EFFORT_FLUSH_TIMEOUT", "SHORT_RANGE_MODE", "READ_LE_HOST_SUPPORT",
    "WRITE_LE_HOST_SUPPORT", ""],
   ["LE_SET_EVENT_MASK", "LE_READ_BUFFER_SIZE", "LE_READ_LOCAL_SUPPORTED_FEATURES", "",
    "LE_SET_RANDOM_ADDRESS", "LE_SET_ADVERTISING_PARAMETERS",
    "LE_READ_ADVERTISING_CHANNEL_TX_POWER", "LE_SET_ADVERTISING_DATA"],
   ["LE_SET_SCAN_RESPONSE_DATA", "LE_SET_ADVERTISE_ENABLE", "LE_SET_SCAN_PARAMETERS",
    "LE_SET_SCAN_ENABLE", "LE_CREATE_CONNECTION", "LE_CREATE_CONNECTION_CANCEL",
    "LE_READ_WHITE_LIST_SIZE", "LE_CLEAR_WHITE_LIST"],
   ["LE_ADD_DEVICE_TO_WHITE_LIST", "LE_REMOVE_DEVICE_FROM_WHITE_LIST", "LE_CONNECTION_UPDATE",
    "LE_SET_HOST_CHANNEL_CLASSIFICATION", "LE_READ_CHANNEL_MAP", "LE_READ_REMOTE_USED_FEATURES",
    "LE_ENCRYPT", "LE_RAND"],
   ["LE_START_ENCRYPTION", "LE_LONG_TERM_KEY_REQUEST_REPLY",
    "LE_LONG_TERM_KEY_REQUEST_NEGATIVE_REPLY", "LE_READ_SUPPORTED_STATES", "LE_RECEIVER_TEST",
    "LE_TRANSMITTER_TEST", "LE_TEST_END", ""],
   ["", "", "", "ENHANCED_SETUP_SYNCHRONOUS_CONNECTION", "ENHANCED_ACCEPT_SYNCHRONOUS_CONNECTION",
    "READ_LOCAL_SUPPORTED_CODECS", "SET_MWS_CHANNEL_PARAMETERS_COMMAND",
    "SET_EXTERNAL_FRAME_CONFIGURATION_COMMAND"],
   ["SET_MWS_SIGNALING_COMMAND", "SET_TRANSPORT_LAYER_COMMAND",
    "SET_MWS_SCAN_FREQUENCY_TABLE_COMMAND", "GET_TRANSPORT_LAYER_CONFIGURATION_COMMAND",
    "SET_MWS_PATTERN_CONFIGURATION_COMMAND", "SET_TRIGGERED_CLOCK_CAPTURE", "TRUNCATED_PAGE",
    "TRUNCATED_PAGE_CANCEL"],
   ["SET_CONNECTIONLESS_PERIPHERAL_BROADCAST", "SET_CONNECTIONLESS_PERIPHERAL_BROADCAST_RECEIVE",
    "START_SYNCHRONIZATION_TRAIN", "RECEIVE_SYNCHRONIZATION_TRAIN", "", "",
    "SET_CONNECTIONLESS_PERIPHERAL_BROADCAST_DATA", "READ_SYNCHRONIZATION_TRAIN_PARAMETERS"],
   ["WRITE_SYNCHRONIZATION_TRAIN_PARAMETERS", "REMOTE_OOB_EXTENDED_DATA_REQUEST_REPLY",
    "READ_SECURE_CONNECTIONS_HOST_SUPPORT", "WRITE_SECURE_CONNECTIONS_HOST_SUPPORT",
    "READ_AUTHENTICATED_PAYLOAD_TIMEOUT", "WRITE_AUTHENTICATED_PAYLOAD_TIMEOUT",
    "READ_LOCAL_OOB_EXTENDED_DATA", "WRITE_SECURE_CONNECTIONS_TEST_MODE"],
   ["READ_EXTENDED_PAGE_TIMEOUT", "WRITE_EXTENDED_PAGE_TIMEOUT", "READ_EXTENDED_INQUIRY_LENGTH",
    "WRITE_EXTENDED_INQUIRY_LENGTH", "LE_REMOTE_CONNECTION_PARAMETER_REQUEST_REPLY_COMMAND",
    "LE_REMOTE_CONNECTION_PARAMETER_REQUEST_NEGATIVE_REPLY_COMMAND", "LE_SET_DATA_LENGTH",
    "LE_READ_SUGGESTED_DEFAULT_DATA_LENGTH"],
   ["LE_WRITE_SUGGESTED_DEFAULT_DATA_LENGTH", "LE_READ_LOCAL_P256_PUBLIC_KEY",
    "LE_GENERATE_DH_KEY", "LE_ADD_DEVICE_TO_RESOLVING_LIST",
    "LE_REMOVE_DEVICE_FROM_RESOLVING_LIST", "LE_CLEAR_RESOLVING_LIST",
    "LE_READ_RESOLVING_LIST_SIZE", "LE_READ_PEER_RESOLVABLE_ADDRESS"],
   ["LE_READ_LOCAL_RESOLVABLE_ADDRESS", "LE_SET_ADDRESS_RESOLUTION_ENABLE",
    "LE_SET_RESOLVABLE_PRIVATE_ADDRESS_TIMEOUT", "LE_READ_MAXIMUM_DATA_LENGTH",
    "LE_READ_PHY_COMMAND", "LE_SET_DEFAULT_PHY_COMMAND", "LE_SET_PHY_COMMAND",
    "LE_ENHANCED_RECEIVER_TEST_COMMAND"],
   ["LE_ENHANCED_TRANSMITTER_TEST_COMMAND", "LE_SET_ADVERTISING_SET_RANDOM_ADDRESS_COMMAND",
    "LE_SET_EXTENDED_ADVERTISING_PARAMETERS_COMMAND", "LE_SET_EXTENDED_ADVERTISING_DATA_COMMAND",
    "LE_SET_EXTENDED_SCAN_RESPONSE_DATA_COMMAND", "LE_SET_EXTENDED_ADVERTISING_ENABLE_COMMAND",
    "LE_READ_MAXIMUM_ADVERTISING_DATA_LENGTH_COMMAND",
    "LE_READ_NUMBER_OF_SUPPORTED_ADVERTISING_SETS_COMMAND"],
   ["LE_REMOVE_ADVERTISING_SET_COMMAND", "LE_CLEAR_ADVERTISING_SETS_COMMAND",
    "LE_SET_PERIODIC_ADVERTISING_PARAMETERS_COMMAND", "LE_SET_PERIODIC_ADVERTISING_DATA_COMMAND",
    "LE_SET_PERIODIC_ADVERTISING_ENABLE_COMMAND", "LE_SET_EXTENDED_SCAN_PARAMETERS_COMMAND",
    "LE_SET_EXTENDED_SCAN_ENABLE_COMMAND", "LE_EXTENDED_CREATE_CONNECTION_COMMAND"],
   ["LE_PERIODIC_ADVERTISING_CREATE_SYNC_COMMAND",
    "LE_PERIODIC_ADVERTISING_CREATE_SYNC_CANCEL_COMMAND",
    "LE_PERIODIC_ADVERTISING_TERMINATE_SYNC_COMMAND",
    "LE_ADD_DEVICE_TO_PERIODIC_ADVERTISER_LIST_COMMAND",
    "LE_REMOVE_DEVICE_FROM_PERIODIC_ADVERTISER_LIST_COMMAND",
    "LE_CLEAR_PERIODIC_ADVERTISER_LIST_COMMAND", "LE_READ_PERIODIC_ADVERTISER_LIST_SIZE_COMMAND",
    "LE_READ_TRANSMIT_POWER_COMMAND"],
   ["LE_READ_RF_PATH_COMPENSATION_COMMAND", "LE_WRITE_RF_PATH_COMPENSATION_COMMAND",
    "LE_SET_PRIVACY_MODE", "", "", "", "", ""]]

end Spec
