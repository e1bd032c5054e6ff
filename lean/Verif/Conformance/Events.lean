import Verif.Model.Event.Event

/-! # The crate's own tests of event decoding, run on the model

`/repo/tests/event.rs`, test by test. These are tests of the transcription, not proofs of properties. A test
that is not gated by a feature is run in all four configurations. `TestEvent::new(Packet(&buffer))` is
`Event.new c mockVendor buffer`. -/

namespace Bt.Conformance

open Duration (millis micros secs)

/-- `VendorStatus`: tests/vendor/mod.rs 22-26. -/
inductive MockStatus where
  | fourFive
  | fiveZero
  deriving DecidableEq

/-- `MockVendor`, `VendorEvent`, `VendorReturnParameters`: tests/vendor/mod.rs 28-71. -/
def mockVendor : Vendor where
  VErr := Unit
  VStatus := MockStatus
  VRet := Unit
  VEvent := Unit
  statusTryFrom b := match b with
    | 0x45 => .ok .fourFive
    | 0x50 => .ok .fiveZero
    | _ => .err b
  statusInto
    | .fourFive => 0x45
    | .fiveZero => 0x50
  eventNew _ := .err (.vendor ())
  retNew _ := .err (.vendor ())

instance : DecidableEq mockVendor.Ev := inferInstanceAs (DecidableEq (Event MockStatus Unit Unit))
instance : DecidableEq mockVendor.EvErr := inferInstanceAs (DecidableEq (EvError Unit))

/-- A test that has to pass in every configuration. -/
abbrev Always (p : Cfg → Prop) : Prop := ∀ v42 v50, p ⟨v42, v50⟩

/-- The union of the flags with these names. -/
def flagsNamed (t : List FlagDecl) (names : List String) : UInt64 :=
  names.foldl (fun x n => x ||| (((t.find? (·.name == n)).map (·.mask)).getD 0)) 0

/-- `connection_complete` (11-29). -/
example : Always fun c => Event.new c mockVendor
    [0x03, 11, 0x00, 0x01, 0x02, 0x03, 0x04, 0x05, 0x06, 0x07, 0x08, 0x00, 0x00] =
    .ok (.connectionComplete ⟨.success, ⟨0x0201⟩, ⟨⟨[0x03, 0x04, 0x05, 0x06, 0x07, 0x08], rfl⟩⟩, .sco, false⟩) := by
  decide +kernel

/-- `connection_complete_failed_bad_status` (31-40). -/
example : Always fun c => Event.new c mockVendor
    [0x03, 11, 0x80, 0x01, 0x02, 0x03, 0x04, 0x05, 0x06, 0x07, 0x08, 0x00, 0x00] = .err (.badStatus 0x80) := by
  decide +kernel

/-- `connection_complete_failed_bad_link_type` (42-51). -/
example : Always fun c => Event.new c mockVendor
    [0x03, 11, 0x00, 0x01, 0x02, 0x03, 0x04, 0x05, 0x06, 0x07, 0x08, 0x02, 0x00] = .err (.badLinkType 0x02) := by
  decide +kernel

/-- `connection_complete_failed_encryption_enabled` (53-62). -/
example : Always fun c => Event.new c mockVendor
    [0x03, 11, 0x00, 0x01, 0x02, 0x03, 0x04, 0x05, 0x06, 0x07, 0x08, 0x01, 0x02] =
    .err (.badEncryptionEnabledValue 0x02) := by decide +kernel

/-- `disconnection_complete` (64-75). -/
example : Always fun c => Event.new c mockVendor [0x05, 4, 0, 0x01, 0x02, 0] =
    .ok (.disconnectionComplete ⟨.success, ⟨0x0201⟩, .success⟩) := by decide +kernel

/-- `disconnection_complete_failed_bad_status` (77-84). -/
example : Always fun c => Event.new c mockVendor [0x05, 4, 0x80, 0x01, 0x02, 0] = .err (.badStatus 0x80) := by
  decide +kernel

/-- `disconnection_complete_failed_bad_reason` (86-93). -/
example : Always fun c => Event.new c mockVendor [0x05, 4, 0, 0x01, 0x02, 0x80] = .err (.badReason 0x80) := by
  decide +kernel

/-- `encryption_change` (95-106). -/
example : Always fun c => Event.new c mockVendor [0x08, 4, 0x00, 0x01, 0x02, 0x00] =
    .ok (.encryptionChange ⟨.success, ⟨0x0201⟩, .off⟩) := by decide +kernel

/-- `encryption_change_failed_bad_status` (108-115). -/
example : Always fun c => Event.new c mockVendor [0x08, 4, 0x80, 0x01, 0x02, 0x00] = .err (.badStatus 0x80) := by
  decide +kernel

/-- `encryption_change_failed_bad_encryption` (117-124). -/
example : Always fun c => Event.new c mockVendor [0x08, 4, 0x00, 0x01, 0x02, 0x03] =
    .err (.badEncryptionType 0x03) := by decide +kernel

/-- `read_remote_version_complete` (126-139). -/
example : Always fun c => Event.new c mockVendor [0x0C, 8, 0x00, 0x01, 0x02, 0x03, 0x04, 0x05, 0x06, 0x07] =
    .ok (.readRemoteVersionInformationComplete ⟨.success, ⟨0x0201⟩, 0x03, 0x0504, 0x0706⟩) := by decide +kernel

/-- `read_remote_version_complete_failed_bad_status` (141-148). -/
example : Always fun c => Event.new c mockVendor [0x0C, 8, 0x80, 0x01, 0x02, 0x03, 0x04, 0x05, 0x06, 0x07] =
    .err (.badStatus 0x80) := by decide +kernel

/-- `command_status` (152-163). -/
example : Always fun c => Event.new c mockVendor [0x0F, 4, 0, 8, 0x01, 0x02] =
    .ok (.commandStatus ⟨.success, 8, ⟨0x0201⟩⟩) := by decide +kernel

/-- `command_status_vendor_status` (165-176). -/
example : Always fun c => Event.new c mockVendor [0x0F, 4, 0x45, 8, 0x01, 0x02] =
    .ok (.commandStatus ⟨.vendor .fourFive, 8, ⟨0x0201⟩⟩) := by decide +kernel

/-- `hardware_error` (178-187). -/
example : Always fun c => Event.new c mockVendor [0x10, 1, 0x12] = .ok (.hardwareError ⟨0x12⟩) := by
  decide +kernel

/-- `number_of_completed_packets` (189-208): two calls of `next`, and the end. -/
example : Always fun c => (Event.new c mockVendor
    [0x13, 9, 2, 0x01, 0x02, 0x03, 0x04, 0x05, 0x06, 0x07, 0x08] >>= fun e => match e with
      | .numberOfCompletedPackets e => do
        let (x, i) ← e.iterNext 0
        let (y, i) ← e.iterNext i
        let (z, _) ← e.iterNext i
        .ok [x, y, z]
      | _ => .panic) =
    .ok [some ⟨⟨0x0201⟩, 0x0403⟩, some ⟨⟨0x0605⟩, 0x0807⟩, none] := by decide +kernel

/-- `data_buffer_overflow` (210-219). -/
example : Always fun c => Event.new c mockVendor [0x1A, 1, 0x00] = .ok (.dataBufferOverflow ⟨.sco⟩) := by
  decide +kernel

/-- `data_buffer_overflow_failed_bad_link_type` (221-228). -/
example : Always fun c => Event.new c mockVendor [0x1A, 1, 0x02] = .err (.badLinkType 0x02) := by decide +kernel

/-- `encryption_key_refresh_complete` (230-240). -/
example : Always fun c => Event.new c mockVendor [0x30, 3, 0, 0x01, 0x02] =
    .ok (.encryptionKeyRefreshComplete ⟨.success, ⟨0x0201⟩⟩) := by decide +kernel

/-- `le_connection_complete` (242-274). -/
example : Always fun c => Event.new c mockVendor
    [0x3E, 19, 0x01, 0x00, 0x01, 0x02, 0x00, 0x00, 0x03, 0x04, 0x05, 0x06, 0x07, 0x08, 0x09,
      0x00, 0x0B, 0x00, 0x0D, 0x0A, 0x00] =
    .ok (.leConnectionComplete ⟨.success, ⟨0x0201⟩, .central,
      .pub ⟨⟨[0x03, 0x04, 0x05, 0x06, 0x07, 0x08], rfl⟩⟩,
      ⟨micros (0x0009 * 1250), 0x000B, millis (0x0A0D * 10)⟩, .ppm500⟩) := by decide +kernel

/-- `le_connection_complete_failed_bad_role` (276-286). -/
example : Always fun c => Event.new c mockVendor
    [0x3E, 19, 0x01, 0x00, 0x01, 0x02, 0x02, 0x00, 0x03, 0x04, 0x05, 0x06, 0x07, 0x08, 0x09,
      0x0A, 0x0B, 0x0C, 0x0D, 0x0E, 0x00] = .err (.badLeConnectionRole 0x02) := by decide +kernel

/-- `le_connection_complete_failed_bad_address_type` (288-298). -/
example : Always fun c => Event.new c mockVendor
    [0x3E, 19, 0x01, 0x00, 0x01, 0x02, 0x00, 0x02, 0x03, 0x04, 0x05, 0x06, 0x07, 0x08, 0x09,
      0x0A, 0x0B, 0x0C, 0x0D, 0x0E, 0x00] = .err (.badLeAddressType 0x02) := by decide +kernel

/-- `le_connection_complete_failed_bad_central_clock_accuracy` (300-310). -/
example : Always fun c => Event.new c mockVendor
    [0x3E, 19, 0x01, 0x00, 0x01, 0x02, 0x00, 0x00, 0x03, 0x04, 0x05, 0x06, 0x07, 0x08, 0x07,
      0x00, 0x0B, 0x00, 0x0D, 0x0B, 0x08] = .err (.badLeCentralClockAccuracy 0x08) := by decide +kernel

/-- `le_advertising_report` (312-341): two calls of `next`, and the end. -/
example : Always fun c => (Event.new c mockVendor
    [0x3E, 27, 0x02, 2, 0, 0, 0x01, 0x02, 0x03, 0x04, 0x05, 0x06, 2, 0x07, 0x08, 0x09, 1, 1,
      0x0A, 0x0B, 0x0C, 0x0D, 0x0E, 0x0F, 3, 0x10, 0x11, 0x12, 0x13] >>= fun e => match e with
      | .leAdvertisingReport e => do
        let (x, i) ← e.iterNext 0
        let (y, i) ← e.iterNext i
        let (z, _) ← e.iterNext i
        .ok [x, y, z]
      | _ => .panic) =
    .ok [some ⟨.advertisement, .pub ⟨⟨[0x01, 0x02, 0x03, 0x04, 0x05, 0x06], rfl⟩⟩, [0x07, 0x08], some 0x09⟩,
      some ⟨.directAdvertisement, .random ⟨⟨[0x0A, 0x0B, 0x0C, 0x0D, 0x0E, 0x0F], rfl⟩⟩, [0x10, 0x11, 0x12],
        some 0x13⟩, none] := by decide +kernel

/-- `le_advertising_report_failed_incomplete` (343-353). -/
example : Always fun c => Event.new c mockVendor
    [0x3E, 27, 0x02, 2, 0, 0, 0x01, 0x02, 0x03, 0x04, 0x05, 0x06, 2, 0x07, 0x08, 0x09, 1, 1,
      0x0A, 0x0B, 0x0C, 0x0D, 0x0E, 0x0F, 4, 0x10, 0x11, 0x12, 0x13] =
    .err .leAdvertisementReportIncomplete := by decide +kernel

/-- `le_advertising_report_failed_bad_advertisement_type` (355-364). -/
example : Always fun c => Event.new c mockVendor
    [0x3E, 14, 0x02, 1, 5, 0, 0x01, 0x02, 0x03, 0x04, 0x05, 0x06, 2, 0x07, 0x08, 0x09] =
    .err (.badLeAdvertisementType 5) := by decide +kernel

/-- `le_advertising_report_failed_bad_addr_type` (366-375). -/
example : Always fun c => Event.new c mockVendor
    [0x3E, 14, 0x02, 1, 1, 4, 0x01, 0x02, 0x03, 0x04, 0x05, 0x06, 2, 0x07, 0x08, 0x09] =
    .err (.badLeAddressType 4) := by decide +kernel

/-- `le_connection_update_complete` (377-401). -/
example : Always fun c => Event.new c mockVendor
    [0x3E, 10, 0x03, 0x00, 0x01, 0x02, 0x03, 0x04, 0x05, 0x00, 0x07, 0x08] =
    .ok (.leConnectionUpdateComplete ⟨.success, ⟨0x0201⟩,
      ⟨micros (0x0403 * 1250), 0x0005, millis (10 * 0x0807)⟩⟩) := by decide +kernel

/-- `le_read_remote_used_features_complete` (403-425), `version-4-1` only. -/
example : Event.new ⟨false, false⟩ mockVendor
    [0x3E, 12, 0x04, 0x00, 0x01, 0x02, 0b00010101, 0x00, 0x00, 0x00, 0x00, 0x00, 0x00, 0x00] =
    .ok (.leReadRemoteUsedFeaturesComplete ⟨.success, ⟨0x0201⟩,
      flagsNamed linkLayerFeature ["LE_ENCRYPTION", "EXTENDED_REJECT_INDICATION", "LE_PING"]⟩) := by
  decide +kernel

/-- `le_read_remote_used_features_complete_failed_bad_flag` (427-440), `version-4-1` only. -/
example : Event.new ⟨false, false⟩ mockVendor
    [0x3E, 12, 0x04, 0x00, 0x01, 0x02, 0b00100000, 0x00, 0x00, 0x00, 0x00, 0x00, 0x00, 0x00] =
    .err (.badRemoteUsedFeatureFlag 0x0000000000000020) := by decide +kernel

/-- `le_read_remote_used_features_complete` (442-462), `version-4-2`. -/
example : Event.new ⟨true, false⟩ mockVendor
    [0x3E, 12, 0x04, 0x00, 0x01, 0x02, 0b00100000, 0x00, 0x00, 0x00, 0x00, 0x00, 0x00, 0x00] =
    .ok (.leReadRemoteUsedFeaturesComplete ⟨.success, ⟨0x0201⟩,
      flagsNamed linkLayerFeature ["LE_DATA_PACKET_LENGTH_EXTENSION"]⟩) := by decide +kernel

/-- `le_read_remote_used_features_complete_failed_bad_flag` (464-477), `version-4-2`. -/
example : Event.new ⟨true, false⟩ mockVendor
    [0x3E, 12, 0x04, 0x00, 0x01, 0x02, 0x00, 0x01, 0x00, 0x00, 0x00, 0x00, 0x00, 0x00] =
    .err (.badRemoteUsedFeatureFlag 0x0000000000000100) := by decide +kernel

/-- `le_read_remote_used_features_complete` (479-496), `version-5-0`. -/
example : ∀ v42, Event.new ⟨v42, true⟩ mockVendor
    [0x3E, 12, 0x04, 0x00, 0x01, 0x02, 0x00, 0x01, 0x00, 0x00, 0x00, 0x00, 0x00, 0x00] =
    .ok (.leReadRemoteUsedFeaturesComplete ⟨.success, ⟨0x0201⟩,
      flagsNamed linkLayerFeature ["LE_2M_PHY"]⟩) := by decide +kernel

/-- `le_read_remote_used_features_complete_failed_bad_flag` (498-511), `version-5-0`. -/
example : ∀ v42, Event.new ⟨v42, true⟩ mockVendor
    [0x3E, 12, 0x04, 0x00, 0x01, 0x02, 0x00, 0x00, 0x02, 0x00, 0x00, 0x00, 0x00, 0x00] =
    .err (.badRemoteUsedFeatureFlag 0x0000000000020000) := by decide +kernel

/-- `le_long_term_key_request` (513-526). -/
example : Always fun c => Event.new c mockVendor
    [0x3E, 13, 0x05, 0x01, 0x02, 0x03, 0x04, 0x05, 0x06, 0x07, 0x08, 0x09, 0x0A, 0x0B, 0x0C] =
    .ok (.leLongTermKeyRequest ⟨⟨0x0201⟩, 0x0A09080706050403, 0x0C0B⟩) := by decide +kernel

end Bt.Conformance
