import Verif.Conformance.Events

/-! # The crate's own tests of Command Complete, run on the model

`/repo/tests/command_complete.rs`, test by test. These are tests of the transcription, not proofs of properties.
A test that is not gated by a feature is run in all four configurations. -/

namespace Bt.Conformance

/-- `VendorReturnParameters`: tests/command_complete.rs 11-14. -/
inductive MockRet where
  | opcode10 (status : Status MockStatus)
  deriving DecidableEq

/-- `VendorEvent`, `VendorReturnParameters`, `VendorStatus`: tests/command_complete.rs 7-60. The vendor calls
`Status::try_from`, so it depends on the configuration. The test's `VendorStatus` has no `Into<u8>`, which the
decoder does not use; that of tests/vendor/mod.rs stands in. -/
def retVendor (c : Cfg) : Vendor where
  VErr := Unit
  VStatus := MockStatus
  VRet := MockRet
  VEvent := Unit
  statusTryFrom := mockVendor.statusTryFrom
  statusInto := mockVendor.statusInto
  eventNew _ := .err (.vendor ())
  retNew buffer := match buffer with
    | _ :: ocf :: _ :: b :: _ =>
      if ocf = 10 then
        match (Status.tryFrom c mockVendor.statusTryFrom b : Res UInt8 (Status MockStatus)) with
        | .ok s => .ok (.opcode10 s)
        | .err _ => .err (.vendor ())
        | .panic => .panic
      else .err (.vendor ())
    | _ => .err (.vendor ())

instance (c : Cfg) : DecidableEq (retVendor c).Ev := inferInstanceAs (DecidableEq (Event MockStatus MockRet Unit))
instance (c : Cfg) : DecidableEq (retVendor c).EvErr := inferInstanceAs (DecidableEq (EvError Unit))

/-- The constant with this name. -/
def flagNamed (t : List ArrFlagDecl) (name : String) : Option BFlag :=
  (t.find? (·.name == name)).map fun d => ⟨d.octet, d.mask⟩

/-- `A | B | …`, computed with the model's `BitOr`. `none` when a name is not in the table. -/
def unionOf (t : List ArrFlagDecl) (n : Nat) (names : List String) : Option (BFlags n) :=
  names.foldl (fun x name => match x, flagNamed t name with
    | some f, some g => match (f.or g : Res Unit (BFlags n)) with
      | .ok h => some h
      | _ => none
    | _, _ => none) (some (BFlags.empty n))

/-- `command_complete_failed` (64-71). -/
example : Always fun c => Event.new c (retVendor c)
    [0x0E, 3, 1, 0x67, 0x43] =
    .err (.unknownOpcode ⟨0x4367⟩) := by decide +kernel

/-- `unsolicited_command_complete` (73-86). -/
example : Always fun c => Event.new c (retVendor c)
    [0x0E, 3, 1, 0x00, 0x00] =
    .ok (.commandComplete ⟨1, .spontaneous⟩) := by decide +kernel

/-- `set_event_mask`, `status_only!` (line 116). -/
example : Always fun c => Event.new c (retVendor c) [0x0E, 4, 8, 0x01, 0x0C, 0] =
    .ok (.commandComplete ⟨8, .setEventMask .success⟩) := by decide +kernel

/-- `reset`, `status_only!` (line 117). -/
example : Always fun c => Event.new c (retVendor c) [0x0E, 4, 8, 0x03, 0x0C, 0] =
    .ok (.commandComplete ⟨8, .reset .success⟩) := by decide +kernel

/-- `le_set_event_mask`, `status_only!` (line 118). -/
example : Always fun c => Event.new c (retVendor c) [0x0E, 4, 8, 0x01, 0x20, 0] =
    .ok (.commandComplete ⟨8, .leSetEventMask .success⟩) := by decide +kernel

/-- `le_set_random_address`, `status_only!` (line 119). -/
example : Always fun c => Event.new c (retVendor c) [0x0E, 4, 8, 0x05, 0x20, 0] =
    .ok (.commandComplete ⟨8, .leSetRandomAddress .success⟩) := by decide +kernel

/-- `le_set_advertising_parameters`, `status_only!` (line 120). -/
example : Always fun c => Event.new c (retVendor c) [0x0E, 4, 8, 0x06, 0x20, 0] =
    .ok (.commandComplete ⟨8, .leSetAdvertisingParameters .success⟩) := by decide +kernel

/-- `le_set_advertising_data`, `status_only!` (line 121). -/
example : Always fun c => Event.new c (retVendor c) [0x0E, 4, 8, 0x08, 0x20, 0] =
    .ok (.commandComplete ⟨8, .leSetAdvertisingData .success⟩) := by decide +kernel

/-- `le_set_scan_response_data`, `status_only!` (line 122). -/
example : Always fun c => Event.new c (retVendor c) [0x0E, 4, 8, 0x09, 0x20, 0] =
    .ok (.commandComplete ⟨8, .leSetScanResponseData .success⟩) := by decide +kernel

/-- `le_set_advertise_enable`, `status_only!` (line 124), `not(feature = "version-5-0")`. -/
example : ∀ v42, Event.new ⟨v42, false⟩ (retVendor ⟨v42, false⟩) [0x0E, 4, 8, 0x0A, 0x20, 0] =
    .ok (.commandComplete ⟨8, .leSetAdvertiseEnable .success⟩) := by decide +kernel

/-- `le_set_advertising_enable`, `status_only!` (line 126), `feature = "version-5-0"`. -/
example : ∀ v42, Event.new ⟨v42, true⟩ (retVendor ⟨v42, true⟩) [0x0E, 4, 8, 0x0A, 0x20, 0] =
    .ok (.commandComplete ⟨8, .leSetAdvertisingEnable .success⟩) := by decide +kernel

/-- `le_set_scan_parameters`, `status_only!` (line 127). -/
example : Always fun c => Event.new c (retVendor c) [0x0E, 4, 8, 0x0B, 0x20, 0] =
    .ok (.commandComplete ⟨8, .leSetScanParameters .success⟩) := by decide +kernel

/-- `le_set_scan_enable`, `status_only!` (line 128). -/
example : Always fun c => Event.new c (retVendor c) [0x0E, 4, 8, 0x0C, 0x20, 0] =
    .ok (.commandComplete ⟨8, .leSetScanEnable .success⟩) := by decide +kernel

/-- `le_create_connection_cancel`, `status_only!` (line 129). -/
example : Always fun c => Event.new c (retVendor c) [0x0E, 4, 8, 0x0E, 0x20, 0] =
    .ok (.commandComplete ⟨8, .leCreateConnectionCancel .success⟩) := by decide +kernel

/-- `le_clear_white_list`, `status_only!` (line 130). -/
example : Always fun c => Event.new c (retVendor c) [0x0E, 4, 8, 0x10, 0x20, 0] =
    .ok (.commandComplete ⟨8, .leClearWhiteList .success⟩) := by decide +kernel

/-- `le_add_device_to_whitelist`, `status_only!` (line 131). -/
example : Always fun c => Event.new c (retVendor c) [0x0E, 4, 8, 0x11, 0x20, 0] =
    .ok (.commandComplete ⟨8, .leAddDeviceToWhiteList .success⟩) := by decide +kernel

/-- `le_remove_device_from_whitelist`, `status_only!` (line 132). -/
example : Always fun c => Event.new c (retVendor c) [0x0E, 4, 8, 0x12, 0x20, 0] =
    .ok (.commandComplete ⟨8, .leRemoveDeviceFromWhiteList .success⟩) := by decide +kernel

/-- `le_set_host_channel_classification`, `status_only!` (line 133). -/
example : Always fun c => Event.new c (retVendor c) [0x0E, 4, 8, 0x14, 0x20, 0] =
    .ok (.commandComplete ⟨8, .leSetHostChannelClassification .success⟩) := by decide +kernel

/-- `le_receiver_test`, `status_only!` (line 135). -/
example : Always fun c => Event.new c (retVendor c) [0x0E, 4, 8, 0x1D, 0x20, 0] =
    .ok (.commandComplete ⟨8, .leReceiverTest .success⟩) := by decide +kernel

/-- `le_transmitter_test`, `status_only!` (line 136). -/
example : Always fun c => Event.new c (retVendor c) [0x0E, 4, 8, 0x1E, 0x20, 0] =
    .ok (.commandComplete ⟨8, .leTransmitterTest .success⟩) := by decide +kernel

/-- `read_tx_power_level` (139-156). -/
example : Always fun c => Event.new c (retVendor c)
    [0x0E, 7, 6, 0x2D, 0x0C, 0x00, 0x01, 0x02, 0x03] =
    .ok (.commandComplete ⟨6, .readTxPowerLevel ⟨.success, ⟨0x0201⟩, 0x03⟩⟩) := by decide +kernel

/-- `read_local_version_information` (158-183). -/
example : Always fun c => Event.new c (retVendor c)
    [0x0E, 12, 0x01, 0x01, 0x10, 0x00, 0x02, 0x03, 0x04, 0x05, 0x06, 0x07, 0x08, 0x09] =
    .ok (.commandComplete ⟨1, .readLocalVersionInformation ⟨.success, 2, 0x0403, 5, 0x0706, 0x0908⟩⟩) := by decide +kernel

/-- `read_local_supported_commands` (185-249), `version-4-1`. -/
example : ∃ f, unionOf commandFlags COMMAND_FLAGS_SIZE
      ["INQUIRY", "REJECT_CONNECTION_REQUEST", "MASTER_LINK_KEY", "PARK_STATE", "FLOW_SPECIFICATION",
        "WRITE_STORED_LINK_KEY", "WRITE_SCAN_ENABLE", "READ_PAGE_SCAN_ACTIVITY", "WRITE_CLASS_OF_DEVICE",
        "READ_TRANSMIT_POWER_LEVEL", "READ_CURRENT_IAC_LAP", "READ_INQUIRY_SCAN_TYPE",
        "READ_LOCAL_EXTENDED_FEATURES", "READ_CLOCK", "READ_LOOPBACK_MODE", "WRITE_EXTENDED_INQUIRY_RESPONSE",
        "READ_DEFAULT_ERRONEOUS_DATA_REPORTING", "USER_PASSKEY_REQUEST_NEGATIVE_REPLY",
        "READ_ENCRYPTION_KEY_SIZE", "DISCONNECT_LOGICAL_LINK", "READ_LOCAL_AMP_ASSOC", "AMP_TEST",
        "READ_ENHANCED_TRANSMIT_POWER_LEVEL", "LE_READ_BUFFER_SIZE", "LE_SET_SCAN_PARAMETERS",
        "LE_SET_HOST_CHANNEL_CLASSIFICATION", "LE_RECEIVER_TEST", "READ_LOCAL_SUPPORTED_CODECS",
        "TRUNCATED_PAGE", "READ_SYNCHRONIZATION_TRAIN_PARAMETERS", "WRITE_SYNCHRONIZATION_TRAIN_PARAMETERS",
        "WRITE_EXTENDED_PAGE_TIMEOUT"] = some f ∧
    Event.new ⟨false, false⟩ (retVendor ⟨false, false⟩)
      [0x0E, 68, 1, 0x02, 0x10, 0x00, 0x01, 0x02, 0x04, 0x00, 0x10, 0x20, 0x40, 0x80, 0x01, 0x02, 0x04, 0x08,
        0x10, 0x00, 0x40, 0x80, 0x01, 0x02, 0x04, 0x08, 0x10, 0x20, 0x40, 0x80, 0x01, 0x02, 0x04, 0x08, 0x10,
        0x20, 0x40, 0x80, 0x01, 0x02, 0x00, 0x00, 0x00, 0x00, 0x00, 0x00, 0x00, 0x00, 0x00, 0x00, 0x00, 0x00,
        0x00, 0x00, 0x00, 0x00, 0x00, 0x00, 0x00, 0x00, 0x00, 0x00, 0x00, 0x00, 0x00, 0x00, 0x00, 0x00, 0x00,
        0x00] =
      .ok (.commandComplete ⟨1, .readLocalSupportedCommands ⟨.success, f⟩⟩) ∧
    (flagNamed commandFlags "INQUIRY").map (fun x => (f.isSet x : Res Unit Bool)) = some (.ok true) ∧
    (unionOf commandFlags COMMAND_FLAGS_SIZE ["INQUIRY", "REJECT_CONNECTION_REQUEST"]).map f.contains =
      some true := ⟨⟨⟨[
        0x01, 0x02, 0x04, 0x00, 0x10, 0x20, 0x40, 0x80, 0x01, 0x02, 0x04, 0x08, 0x10, 0x00, 0x40, 0x80, 0x01,
          0x02, 0x04, 0x08, 0x10, 0x20, 0x40, 0x80, 0x01, 0x02, 0x04, 0x08, 0x10, 0x20, 0x40, 0x80, 0x01,
          0x02, 0x00, 0x00, 0x00, 0x00, 0x00, 0x00, 0x00, 0x00, 0x00, 0x00, 0x00, 0x00, 0x00, 0x00, 0x00,
          0x00, 0x00, 0x00, 0x00, 0x00, 0x00, 0x00, 0x00, 0x00, 0x00, 0x00, 0x00, 0x00, 0x00, 0x00], rfl⟩⟩, by decide +kernel⟩

/-- `read_local_supported_commands_failed_bad_command_flag` (251-265), `version-4-1`. -/
example : Event.new ⟨false, false⟩ (retVendor ⟨false, false⟩)
    [0x0E, 68, 1, 0x02, 0x10, 0x00, 0x01, 0x02, 0x04, 0x00, 0x10, 0x20, 0x40, 0x80, 0x01, 0x02, 0x04, 0x08,
      0x10, 0x00, 0x40, 0x80, 0x01, 0x02, 0x04, 0x08, 0x10, 0x20, 0x40, 0x80, 0x01, 0x02, 0x04, 0x08, 0x10,
      0x20, 0x40, 0x80, 0x01, 0x42, 0x00, 0x00, 0x00, 0x00, 0x00, 0x00, 0x00, 0x00, 0x00, 0x00, 0x00, 0x00,
      0x00, 0x00, 0x00, 0x00, 0x00, 0x00, 0x00, 0x00, 0x00, 0x00, 0x00, 0x00, 0x00, 0x00, 0x00, 0x00, 0x00,
      0x00] =
    .err (.badCommandFlag) := by decide +kernel

/-- `read_local_supported_commands` (267-333), `version-4-2`. -/
example : ∃ f, unionOf commandFlags COMMAND_FLAGS_SIZE
      ["INQUIRY", "REJECT_CONNECTION_REQUEST", "MASTER_LINK_KEY", "PARK_STATE", "FLOW_SPECIFICATION",
        "WRITE_STORED_LINK_KEY", "WRITE_SCAN_ENABLE", "READ_PAGE_SCAN_ACTIVITY", "WRITE_CLASS_OF_DEVICE",
        "READ_TRANSMIT_POWER_LEVEL", "READ_CURRENT_IAC_LAP", "READ_INQUIRY_SCAN_TYPE",
        "READ_LOCAL_EXTENDED_FEATURES", "READ_CLOCK", "READ_LOOPBACK_MODE", "WRITE_EXTENDED_INQUIRY_RESPONSE",
        "READ_DEFAULT_ERRONEOUS_DATA_REPORTING", "USER_PASSKEY_REQUEST_NEGATIVE_REPLY",
        "READ_ENCRYPTION_KEY_SIZE", "DISCONNECT_LOGICAL_LINK", "READ_LOCAL_AMP_ASSOC", "AMP_TEST",
        "READ_ENHANCED_TRANSMIT_POWER_LEVEL", "LE_READ_BUFFER_SIZE", "LE_SET_SCAN_PARAMETERS",
        "LE_SET_HOST_CHANNEL_CLASSIFICATION", "LE_RECEIVER_TEST", "READ_LOCAL_SUPPORTED_CODECS",
        "TRUNCATED_PAGE", "READ_SYNCHRONIZATION_TRAIN_PARAMETERS", "WRITE_SYNCHRONIZATION_TRAIN_PARAMETERS",
        "WRITE_EXTENDED_PAGE_TIMEOUT", "LE_GENERATE_DH_KEY", "LE_READ_MAXIMUM_DATA_LENGTH"] = some f ∧
    Event.new ⟨true, false⟩ (retVendor ⟨true, false⟩)
      [0x0E, 68, 1, 0x02, 0x10, 0x00, 0x01, 0x02, 0x04, 0x00, 0x10, 0x20, 0x40, 0x80, 0x01, 0x02, 0x04, 0x08,
        0x10, 0x00, 0x40, 0x80, 0x01, 0x02, 0x04, 0x08, 0x10, 0x20, 0x40, 0x80, 0x01, 0x02, 0x04, 0x08, 0x10,
        0x20, 0x40, 0x80, 0x01, 0x02, 0x04, 0x08, 0x00, 0x00, 0x00, 0x00, 0x00, 0x00, 0x00, 0x00, 0x00, 0x00,
        0x00, 0x00, 0x00, 0x00, 0x00, 0x00, 0x00, 0x00, 0x00, 0x00, 0x00, 0x00, 0x00, 0x00, 0x00, 0x00, 0x00,
        0x00] =
      .ok (.commandComplete ⟨1, .readLocalSupportedCommands ⟨.success, f⟩⟩) ∧
    (flagNamed commandFlags "INQUIRY").map (fun x => (f.isSet x : Res Unit Bool)) = some (.ok true) ∧
    (unionOf commandFlags COMMAND_FLAGS_SIZE ["INQUIRY", "REJECT_CONNECTION_REQUEST"]).map f.contains =
      some true := ⟨⟨⟨[
        0x01, 0x02, 0x04, 0x00, 0x10, 0x20, 0x40, 0x80, 0x01, 0x02, 0x04, 0x08, 0x10, 0x00, 0x40, 0x80, 0x01,
          0x02, 0x04, 0x08, 0x10, 0x20, 0x40, 0x80, 0x01, 0x02, 0x04, 0x08, 0x10, 0x20, 0x40, 0x80, 0x01,
          0x02, 0x04, 0x08, 0x00, 0x00, 0x00, 0x00, 0x00, 0x00, 0x00, 0x00, 0x00, 0x00, 0x00, 0x00, 0x00,
          0x00, 0x00, 0x00, 0x00, 0x00, 0x00, 0x00, 0x00, 0x00, 0x00, 0x00, 0x00, 0x00, 0x00, 0x00], rfl⟩⟩, by decide +kernel⟩

/-- `read_local_supported_commands_failed_bad_command_flag` (335-349), `version-4-2`. -/
example : Event.new ⟨true, false⟩ (retVendor ⟨true, false⟩)
    [0x0E, 68, 1, 0x02, 0x10, 0x00, 0x01, 0x02, 0x04, 0x00, 0x10, 0x20, 0x40, 0x80, 0x01, 0x02, 0x04, 0x08,
      0x10, 0x00, 0x40, 0x80, 0x01, 0x02, 0x04, 0x08, 0x10, 0x20, 0x40, 0x80, 0x01, 0x02, 0x04, 0x08, 0x10,
      0x20, 0x40, 0x80, 0x01, 0x02, 0x04, 0x10, 0x00, 0x00, 0x00, 0x00, 0x00, 0x00, 0x00, 0x00, 0x00, 0x00,
      0x00, 0x00, 0x00, 0x00, 0x00, 0x00, 0x00, 0x00, 0x00, 0x00, 0x00, 0x00, 0x00, 0x00, 0x00, 0x00, 0x00,
      0x00] =
    .err (.badCommandFlag) := by decide +kernel

/-- `read_local_supported_commands` (351-420), `version-5-0`. -/
example : ∀ v42, ∃ f, unionOf commandFlags COMMAND_FLAGS_SIZE
      ["INQUIRY", "REJECT_CONNECTION_REQUEST", "MASTER_LINK_KEY", "PARK_STATE", "FLOW_SPECIFICATION",
        "WRITE_STORED_LINK_KEY", "WRITE_SCAN_ENABLE", "READ_PAGE_SCAN_ACTIVITY", "WRITE_CLASS_OF_DEVICE",
        "READ_TRANSMIT_POWER_LEVEL", "READ_CURRENT_IAC_LAP", "READ_INQUIRY_SCAN_TYPE",
        "READ_LOCAL_EXTENDED_FEATURES", "READ_CLOCK", "READ_LOOPBACK_MODE", "WRITE_EXTENDED_INQUIRY_RESPONSE",
        "READ_DEFAULT_ERRONEOUS_DATA_REPORTING", "USER_PASSKEY_REQUEST_NEGATIVE_REPLY",
        "READ_ENCRYPTION_KEY_SIZE", "DISCONNECT_LOGICAL_LINK", "READ_LOCAL_AMP_ASSOC", "AMP_TEST",
        "READ_ENHANCED_TRANSMIT_POWER_LEVEL", "LE_READ_BUFFER_SIZE", "LE_SET_SCAN_PARAMETERS",
        "LE_SET_HOST_CHANNEL_CLASSIFICATION", "LE_RECEIVER_TEST", "READ_LOCAL_SUPPORTED_CODECS",
        "TRUNCATED_PAGE", "READ_SYNCHRONIZATION_TRAIN_PARAMETERS", "WRITE_SYNCHRONIZATION_TRAIN_PARAMETERS",
        "WRITE_EXTENDED_PAGE_TIMEOUT", "LE_GENERATE_DH_KEY", "LE_READ_MAXIMUM_DATA_LENGTH",
        "LE_SET_EXTENDED_SCAN_RESPONSE_DATA_COMMAND", "LE_SET_EXTENDED_SCAN_PARAMETERS_COMMAND",
        "LE_READ_PERIODIC_ADVERTISER_LIST_SIZE_COMMAND"] = some f ∧
    Event.new ⟨v42, true⟩ (retVendor ⟨v42, true⟩)
      [0x0E, 68, 1, 0x02, 0x10, 0x00, 0x01, 0x02, 0x04, 0x00, 0x10, 0x20, 0x40, 0x80, 0x01, 0x02, 0x04, 0x08,
        0x10, 0x00, 0x40, 0x80, 0x01, 0x02, 0x04, 0x08, 0x10, 0x20, 0x40, 0x80, 0x01, 0x02, 0x04, 0x08, 0x10,
        0x20, 0x40, 0x80, 0x01, 0x02, 0x04, 0x08, 0x10, 0x20, 0x40, 0x00, 0x00, 0x00, 0x00, 0x00, 0x00, 0x00,
        0x00, 0x00, 0x00, 0x00, 0x00, 0x00, 0x00, 0x00, 0x00, 0x00, 0x00, 0x00, 0x00, 0x00, 0x00, 0x00, 0x00,
        0x00] =
      .ok (.commandComplete ⟨1, .readLocalSupportedCommands ⟨.success, f⟩⟩) ∧
    (flagNamed commandFlags "INQUIRY").map (fun x => (f.isSet x : Res Unit Bool)) = some (.ok true) ∧
    (unionOf commandFlags COMMAND_FLAGS_SIZE ["INQUIRY", "REJECT_CONNECTION_REQUEST"]).map f.contains =
      some true := fun v42 => ⟨⟨⟨[
        0x01, 0x02, 0x04, 0x00, 0x10, 0x20, 0x40, 0x80, 0x01, 0x02, 0x04, 0x08, 0x10, 0x00, 0x40, 0x80, 0x01,
          0x02, 0x04, 0x08, 0x10, 0x20, 0x40, 0x80, 0x01, 0x02, 0x04, 0x08, 0x10, 0x20, 0x40, 0x80, 0x01,
          0x02, 0x04, 0x08, 0x10, 0x20, 0x40, 0x00, 0x00, 0x00, 0x00, 0x00, 0x00, 0x00, 0x00, 0x00, 0x00,
          0x00, 0x00, 0x00, 0x00, 0x00, 0x00, 0x00, 0x00, 0x00, 0x00, 0x00, 0x00, 0x00, 0x00, 0x00], rfl⟩⟩, by cases v42 <;> decide +kernel⟩

/-- `read_local_supported_commands_failed_bad_command_flag` (422-436), `version-5-0`. -/
example : ∀ v42, Event.new ⟨v42, true⟩ (retVendor ⟨v42, true⟩)
    [0x0E, 68, 1, 0x02, 0x10, 0x00, 0x01, 0x02, 0x04, 0x00, 0x10, 0x20, 0x40, 0x80, 0x01, 0x02, 0x04, 0x08,
      0x10, 0x00, 0x40, 0x80, 0x01, 0x02, 0x04, 0x08, 0x10, 0x20, 0x40, 0x80, 0x01, 0x02, 0x04, 0x08, 0x10,
      0x20, 0x40, 0x80, 0x01, 0x02, 0x04, 0x08, 0x10, 0x20, 0x40, 0x80, 0x00, 0x00, 0x00, 0x00, 0x00, 0x00,
      0x00, 0x00, 0x00, 0x00, 0x00, 0x00, 0x00, 0x00, 0x00, 0x00, 0x00, 0x00, 0x00, 0x00, 0x00, 0x00, 0x00,
      0x00] =
    .err (.badCommandFlag) := by decide +kernel

/-- `read_local_supported_features` (438-469). -/
example : Always fun c => Event.new c (retVendor c)
    [0x0E, 12, 1, 0x03, 0x10, 0x00, 0x01, 0x02, 0x04, 0x08, 0x10, 0x20, 0x40, 0x80] =
    .ok (.commandComplete ⟨1, .readLocalSupportedFeatures ⟨.success,
      flagsNamed lmpFeatures ["THREE_SLOT_PACKETS", "POWER_CONTROL_REQUESTS", "POWER_CONTROL",
        "ENHANCED_INQUIRY_SCAN", "AFH_CLASSIFICATION_PERIPHERAL", "ENHANCED_DATA_RATE_ESCO_2_MB_PER_S_MODE",
        "NON_FLUSHABLE_PACKET_BOUNDARY_FLAG", "EXTENDED_FEATURES"]⟩⟩) := by decide +kernel

/-- `read_bd_addr` (471-492). -/
example : Always fun c => Event.new c (retVendor c)
    [0x0E, 10, 1, 0x09, 0x10, 0x00, 0x01, 0x02, 0x03, 0x04, 0x05, 0x06] =
    .ok (.commandComplete ⟨1, .readBdAddr ⟨.success, ⟨⟨[0x01, 0x02, 0x03, 0x04, 0x05, 0x06], rfl⟩⟩⟩⟩) := by decide +kernel

/-- `read_rssi` (494-511). -/
example : Always fun c => Event.new c (retVendor c)
    [0x0E, 7, 1, 0x05, 0x14, 0x00, 0x01, 0x02, 0x03] =
    .ok (.commandComplete ⟨1, .readRssi ⟨.success, ⟨0x0201⟩, 0x03⟩⟩) := by decide +kernel

/-- `le_read_buffer_size` (513-530). -/
example : Always fun c => Event.new c (retVendor c)
    [0x0E, 7, 2, 0x02, 0x20, 0x00, 0x01, 0x02, 0x03] =
    .ok (.commandComplete ⟨2, .leReadBufferSize ⟨.success, 0x0201, 0x03⟩⟩) := by decide +kernel

/-- `le_read_local_supported_features` (532-554), `version-4-1`. -/
example : Event.new ⟨false, false⟩ (retVendor ⟨false, false⟩)
    [0x0E, 12, 1, 0x03, 0x20, 0x00, 0x11, 0x00, 0x00, 0x00, 0x00, 0x00, 0x00, 0x00] =
    .ok (.commandComplete ⟨1, .leReadLocalSupportedFeatures ⟨.success,
      flagsNamed leFeatures ["ENCRYPTION", "PING"]⟩⟩) := by decide +kernel

/-- `le_read_local_supported_features` (556-578), `version-4-2`. -/
example : Event.new ⟨true, false⟩ (retVendor ⟨true, false⟩)
    [0x0E, 12, 1, 0x03, 0x20, 0x00, 0x81, 0x00, 0x00, 0x00, 0x00, 0x00, 0x00, 0x00] =
    .ok (.commandComplete ⟨1, .leReadLocalSupportedFeatures ⟨.success,
      flagsNamed leFeatures ["ENCRYPTION", "EXTENDED_SCANNER_FILTER_POLICIES"]⟩⟩) := by decide +kernel

/-- `le_read_local_supported_features` (580-604), `version-5-0`. -/
example : ∀ v42, Event.new ⟨v42, true⟩ (retVendor ⟨v42, true⟩)
    [0x0E, 12, 1, 0x03, 0x20, 0x00, 0x04, 0x02, 0x01, 0x00, 0x00, 0x00, 0x00, 0x00] =
    .ok (.commandComplete ⟨1, .leReadLocalSupportedFeatures ⟨.success,
      flagsNamed leFeatures ["EXTENDED_REJECT_INDICATION", "STABLE_MODULATION_INDEX_TX",
        "MINIMUM_NUMBER_OF_USED_CHANNELS_PROCEDURE"]⟩⟩) := by decide +kernel

/-- `le_read_advertising_channel_tx_power` (606-625). -/
example : Always fun c => Event.new c (retVendor c)
    [0x0E, 5, 1, 0x07, 0x20, 0x00, 0x01] =
    .ok (.commandComplete ⟨1, .leReadAdvertisingChannelTxPower ⟨.success, 0x01⟩⟩) := by decide +kernel

/-- `le_read_white_list_size` (627-646). -/
example : Always fun c => Event.new c (retVendor c)
    [0x0E, 5, 1, 0x0F, 0x20, 0x00, 0x16] =
    .ok (.commandComplete ⟨1, .leReadWhiteListSize .success 0x16⟩) := by decide +kernel

/-- `le_read_channel_map` (648-682). -/
example : Always fun c => ∃ f, unionOf channelClassification 5
      ["CH_0", "CH_4", "CH_8", "CH_12", "CH_16", "CH_20", "CH_24", "CH_28", "CH_32", "CH_36"] = some f ∧
    Event.new c (retVendor c)
      [0x0E, 11, 1, 0x15, 0x20, 0x00, 0x01, 0x02, 0x11, 0x11, 0x11, 0x11, 0x11] =
      .ok (.commandComplete ⟨1, .leReadChannelMap ⟨.success, ⟨0x0201⟩, f⟩⟩) :=
  fun v42 v50 => ⟨⟨⟨[0x11, 0x11, 0x11, 0x11, 0x11], rfl⟩⟩, by cases v42 <;> cases v50 <;> decide +kernel⟩

/-- `le_read_channel_map_failed_reserved` (684-695). -/
example : Always fun c => Event.new c (retVendor c)
    [0x0E, 11, 1, 0x15, 0x20, 0x00, 0x01, 0x02, 0x00, 0x00, 0x00, 0x00, 0x20] =
    .err (.invalidChannelMap ⟨[0x00, 0x00, 0x00, 0x00, 0x20], rfl⟩) := by decide +kernel

/-- `le_encrypt` (697-718). -/
example : Always fun c => Event.new c (retVendor c)
    [0x0E, 20, 1, 0x17, 0x20, 0x00, 1, 2, 3, 4, 5, 6, 7, 8, 9, 10, 11, 12, 13, 14, 15, 16] =
    .ok (.commandComplete ⟨1, .leEncrypt ⟨.success, ⟨[1, 2, 3, 4, 5, 6, 7, 8, 9, 10, 11, 12, 13, 14, 15, 16], rfl⟩⟩⟩) := by decide +kernel

/-- `le_rand` (720-738). -/
example : Always fun c => Event.new c (retVendor c)
    [0x0E, 12, 1, 0x18, 0x20, 0x00, 0x01, 0x02, 0x03, 0x04, 0x05, 0x06, 0x07, 0x08] =
    .ok (.commandComplete ⟨1, .leRand ⟨.success, 0x0807060504030201⟩⟩) := by decide +kernel

/-- `le_long_term_key_request_reply` (740-759). -/
example : Always fun c => Event.new c (retVendor c)
    [0x0E, 6, 1, 0x1A, 0x20, 0x00, 0x01, 0x02] =
    .ok (.commandComplete ⟨1, .leLongTermKeyRequestReply ⟨.success, ⟨0x0201⟩⟩⟩) := by decide +kernel

/-- `le_long_term_key_request_negative_reply` (761-780). -/
example : Always fun c => Event.new c (retVendor c)
    [0x0E, 6, 1, 0x1B, 0x20, 0x00, 0x01, 0x02] =
    .ok (.commandComplete ⟨1, .leLongTermKeyRequestNegativeReply ⟨.success, ⟨0x0201⟩⟩⟩) := by decide +kernel

/-- `le_read_supported_states` (782-811). -/
example : Always fun c => Event.new c (retVendor c)
    [0x0E, 12, 1, 0x1C, 0x20, 0x00, 0x01, 0x02, 0x04, 0x08, 0x10, 0x02, 0x00, 0x00] =
    .ok (.commandComplete ⟨1, .leReadSupportedStates ⟨.success,
      flagsNamed leStates ["NON_CONNECTABLE_ADVERTISING", "SCAN_AD_AND_PASS_SCAN",
        "NONCONN_AD_AND_CENTRAL_CONN", "ACT_SCAN_AND_PERIPH_CONN", "DIR_AD_HDC_AND_CENTRAL_CONN",
        "INITIATING_AND_PERIPH_CONN"]⟩⟩) := by decide +kernel

/-- `le_read_supported_states_failed_reserved_flag` (813-824). -/
example : Always fun c => Event.new c (retVendor c)
    [0x0E, 12, 1, 0x1C, 0x20, 0x00, 0x01, 0x02, 0x04, 0x08, 0x10, 0x04, 0x00, 0x00] =
    .err (.invalidLeStates 0x0000041008040201) := by decide +kernel

/-- `le_test_end` (826-842). -/
example : Always fun c => Event.new c (retVendor c)
    [0x0E, 6, 1, 0x1F, 0x20, 0x00, 0x01, 0x02] =
    .ok (.commandComplete ⟨1, .leTestEnd ⟨.success, 0x0201⟩⟩) := by decide +kernel

/-- `vendor_command` (844-861). -/
example : Always fun c => Event.new c (retVendor c)
    [0x0E, 4, 1, 0x0A, 0xFC, 0x00] =
    .ok (.commandComplete ⟨1, .vendor (.opcode10 .success)⟩) := by decide +kernel

end Bt.Conformance
