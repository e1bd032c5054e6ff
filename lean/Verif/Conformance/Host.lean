import Verif.Conformance.CommandComplete
import Verif.Model.Host.Commands

/-! # The crate's own tests of the commands, run on the model

`/repo/tests/host.rs`, test by test. These are tests of the transcription, not proofs of properties. -/

namespace Bt.Conformance

open Duration (millis micros secs)

/-- `RecordingSink`: tests/vendor/mod.rs 9-14 and 73-95. The state is `written_data`, which `write` replaces. -/
def sink : Controller (List UInt8) Unit where
  write header payload := fun _ => (.ok (), header ++ payload)
  readInto _ := fun s => (.err (.other ()), s)
  peek _ := fun s => (.err (.other ()), s)

/-- `RecordingSink::new().as_controller().method(…)`: the result and `written_data`. -/
def run (cmd : Command MockStatus) : Res (Nb (HostError Unit MockStatus)) Unit × List UInt8 :=
  cmd.exec uartHeader sink mockVendor.statusInto []

/-- A union of flags whose names are in the table. -/
def named {α : Type} : Option α → Res Unit α
  | some a => .ok a
  | none => .panic

/-- `disconnect` (10-17). -/
example : run (.disconnect ⟨0x0201⟩ .authFailure) =
    (.ok (), [1, 0x06, 0x04, 3, 0x01, 0x02, 0x05]) := by decide +kernel

/-- `disconnect_bad_reason` (19-32). -/
example : run (.disconnect ⟨0x0201⟩ .unknownCommand) =
    (.err (.other (.badDisconnectionReason .unknownCommand)), []) := by decide +kernel

/-- `read_remote_version_information`, `conn_handle_only!` (line 54). -/
example : run (.readRemoteVersionInformation ⟨0x0201⟩) = (.ok (), [1, 0x1D, 0x04, 2, 0x01, 0x02]) := by decide +kernel

/-- `read_rssi`, `conn_handle_only!` (line 55). -/
example : run (.readRssi ⟨0x0201⟩) = (.ok (), [1, 0x05, 0x14, 2, 0x01, 0x02]) := by decide +kernel

/-- `le_read_channel_map`, `conn_handle_only!` (line 56). -/
example : run (.leReadChannelMap ⟨0x0201⟩) = (.ok (), [1, 0x15, 0x20, 2, 0x01, 0x02]) := by decide +kernel

/-- `le_read_remote_used_features`, `conn_handle_only!` (line 57). -/
example : run (.leReadRemoteUsedFeatures ⟨0x0201⟩) = (.ok (), [1, 0x16, 0x20, 2, 0x01, 0x02]) := by decide +kernel

/-- `le_long_term_key_request_negative_reply`, `conn_handle_only!` (line 58). -/
example : run (.leLongTermKeyRequestNegativeReply ⟨0x0201⟩) = (.ok (), [1, 0x1B, 0x20, 2, 0x01, 0x02]) := by decide +kernel

/-- `reset`, `no_params!` (line 81). -/
example : run (.reset) = (.ok (), [1, 0x03, 0x0C, 0]) := by decide +kernel

/-- `read_local_version_information`, `no_params!` (line 82). -/
example : run (.readLocalVersionInformation) = (.ok (), [1, 0x01, 0x10, 0]) := by decide +kernel

/-- `read_local_supported_commands`, `no_params!` (line 83). -/
example : run (.readLocalSupportedCommands) = (.ok (), [1, 0x02, 0x10, 0]) := by decide +kernel

/-- `read_local_supported_features`, `no_params!` (line 84). -/
example : run (.readLocalSupportedFeatures) = (.ok (), [1, 0x03, 0x10, 0]) := by decide +kernel

/-- `read_bd_addr`, `no_params!` (line 85). -/
example : run (.readBdAddr) = (.ok (), [1, 0x09, 0x10, 0]) := by decide +kernel

/-- `le_read_buffer_size`, `no_params!` (line 86). -/
example : run (.leReadBufferSize) = (.ok (), [1, 0x02, 0x20, 0]) := by decide +kernel

/-- `le_read_local_supported_features`, `no_params!` (line 87). -/
example : run (.leReadLocalSupportedFeatures) = (.ok (), [1, 0x03, 0x20, 0]) := by decide +kernel

/-- `le_read_advertising_channel_tx_power`, `no_params!` (line 88). -/
example : run (.leReadAdvertisingChannelTxPower) = (.ok (), [1, 0x07, 0x20, 0]) := by decide +kernel

/-- `le_create_connection_cancel`, `no_params!` (line 89). -/
example : run (.leCreateConnectionCancel) = (.ok (), [1, 0x0E, 0x20, 0]) := by decide +kernel

/-- `le_read_white_list_size`, `no_params!` (line 90). -/
example : run (.leReadWhiteListSize) = (.ok (), [1, 0x0F, 0x20, 0]) := by decide +kernel

/-- `le_clear_white_list`, `no_params!` (line 91). -/
example : run (.leClearWhiteList) = (.ok (), [1, 0x10, 0x20, 0]) := by decide +kernel

/-- `le_rand`, `no_params!` (line 92). -/
example : run (.leRand) = (.ok (), [1, 0x18, 0x20, 0]) := by decide +kernel

/-- `le_read_supported_states`, `no_params!` (line 93). -/
example : run (.leReadSupportedStates) = (.ok (), [1, 0x1C, 0x20, 0]) := by decide +kernel

/-- `le_test_end`, `no_params!` (line 94). -/
example : run (.leTestEnd) = (.ok (), [1, 0x1F, 0x20, 0]) := by decide +kernel

/-- `set_event_mask` (97-107). -/
example : run (.setEventMask (flagsNamed eventFlags ["INQUIRY_COMPLETE", "AUTHENTICATION_COMPLETE"])) =
    (.ok (),
      [1, 0x01, 0x0C, 8, 0x21, 0x00, 0x00, 0x00, 0x00, 0x00, 0x00, 0x00]) := by decide +kernel

/-- `read_tx_power_level` (109-116). -/
example : run (.readTxPowerLevel ⟨0x0201⟩ .current) =
    (.ok (), [1, 0x2D, 0x0C, 3, 0x01, 0x02, 0x00]) := by decide +kernel

/-- `le_set_event_mask` (118-130). -/
example : run (.leSetEventMask (flagsNamed leEventFlags
      ["CONNECTION_COMPLETE", "REMOTE_CONNECTION_PARAMETER_REQUEST"])) =
    (.ok (),
      [1, 0x01, 0x20, 8, 0x21, 0x00, 0x00, 0x00, 0x00, 0x00, 0x00, 0x00]) := by decide +kernel

/-- `le_set_random_address` (132-142). -/
example : run (.leSetRandomAddress ⟨⟨[0x01, 0x02, 0x04, 0x08, 0x10, 0x20], rfl⟩⟩) =
    (.ok (), [1, 0x05, 0x20, 6, 0x01, 0x02, 0x04, 0x08, 0x10, 0x20]) := by decide +kernel

/-- `le_set_random_address_invalid_addr_type` (144-177): each address is rejected and nothing is written. -/
example : ∀ a ∈ ([⟨⟨[0x01, 0x02, 0x04, 0x08, 0x10, 0b01000000], rfl⟩⟩,
      ⟨⟨[0xFF, 0xFF, 0xFF, 0xFF, 0xFF, 0xFF], rfl⟩⟩,
      ⟨⟨[0x00, 0x00, 0x00, 0x00, 0x00, 0b11000000], rfl⟩⟩,
      ⟨⟨[0xFF, 0xFF, 0xFF, 0xFF, 0xFF, 0b00111111], rfl⟩⟩,
      ⟨⟨[0x00, 0x00, 0x00, 0x00, 0x00, 0x00], rfl⟩⟩,
      ⟨⟨[0x01, 0x02, 0x04, 0xFF, 0xFF, 0b10111111], rfl⟩⟩,
      ⟨⟨[0x01, 0x02, 0x04, 0x00, 0x00, 0b10000000], rfl⟩⟩] : List BdAddr),
    run (.leSetRandomAddress a) = (.err (.other (.badRandomAddress a)), []) := by decide +kernel

/-- `le_set_advertising_parameters` (179-221). -/
example : Always fun c => (do
      let i ← ((AdvertisingInterval.forType .connectableUndirected).withRange c (millis 21) (millis 1000)).unwrap
      .ok (run (.leSetAdvertisingParameters ⟨i, .pub, .random ⟨⟨[0x01, 0x02, 0x03, 0x04, 0x05, 0x06], rfl⟩⟩, (flagsNamed channels ["CH_37", "CH_39"]).toUInt8,
        .allowConnectionAndScan⟩)) : Res Unit _) =
    .ok (.ok (),
      [1, 0x06, 0x20, 15, 0x21, 0x00, 0x40, 0x06, 0x00, 0x00, 0x01, 0x01, 0x02, 0x03, 0x04, 0x05, 0x06,
       0b00000101, 0x00]) := by decide +kernel

/-- `le_set_advertising_parameters_bad_channel_map` (223-248). -/
example : Always fun c => (do
      let i ← ((AdvertisingInterval.forType .connectableUndirected).withRange c (millis 20) (millis 1000)).unwrap
      .ok (run (.leSetAdvertisingParameters ⟨i, .pub, .random ⟨⟨[0x01, 0x02, 0x03, 0x04, 0x05, 0x06], rfl⟩⟩, 0,
        .allowConnectionAndScan⟩)) : Res Unit _) =
    .ok (.err (.other (.badChannelMap 0)), []) := by decide +kernel

/-- `le_set_advertising_data_empty` (250-261). -/
example : run (.leSetAdvertisingData []) =
    (.ok (),
      [1, 0x08, 0x20, 32, 0, 0, 0, 0, 0, 0, 0, 0, 0, 0, 0, 0, 0, 0, 0, 0, 0, 0, 0, 0, 0, 0, 0, 0, 0, 0, 0, 0,
       0, 0, 0, 0]) := by decide +kernel

/-- `le_set_advertising_data_partial` (263-276). -/
example : run (.leSetAdvertisingData [1, 2, 3, 4, 5, 6, 7, 8]) =
    (.ok (),
      [1, 0x08, 0x20, 32, 8, 1, 2, 3, 4, 5, 6, 7, 8, 0, 0, 0, 0, 0, 0, 0, 0, 0, 0, 0, 0, 0, 0, 0, 0, 0, 0, 0,
       0, 0, 0, 0]) := by decide +kernel

/-- `le_set_advertising_data_full` (278-294). -/
example : run (.leSetAdvertisingData [1, 2, 3, 4, 5, 6, 7, 8, 9, 10, 11, 12, 13, 14, 15, 16, 17, 18, 19, 20, 21, 22, 23, 24, 25, 26, 27, 28,
       29, 30, 31]) =
    (.ok (),
      [1, 0x08, 0x20, 32, 31, 1, 2, 3, 4, 5, 6, 7, 8, 9, 10, 11, 12, 13, 14, 15, 16, 17, 18, 19, 20, 21, 22,
       23, 24, 25, 26, 27, 28, 29, 30, 31]) := by decide +kernel

/-- `le_set_advertising_data_too_long` (296-305). -/
example : run (.leSetAdvertisingData (List.replicate 32 0)) =
    (.err (.other (.advertisingDataTooLong 32)), []) := by decide +kernel

/-- `le_set_scan_response_data_empty` (307-318). -/
example : run (.leSetScanResponseData []) =
    (.ok (),
      [1, 0x09, 0x20, 32, 0, 0, 0, 0, 0, 0, 0, 0, 0, 0, 0, 0, 0, 0, 0, 0, 0, 0, 0, 0, 0, 0, 0, 0, 0, 0, 0, 0,
       0, 0, 0, 0]) := by decide +kernel

/-- `le_set_scan_response_data_partial` (320-333). -/
example : run (.leSetScanResponseData [1, 2, 3, 4, 5, 6, 7, 8]) =
    (.ok (),
      [1, 0x09, 0x20, 32, 8, 1, 2, 3, 4, 5, 6, 7, 8, 0, 0, 0, 0, 0, 0, 0, 0, 0, 0, 0, 0, 0, 0, 0, 0, 0, 0, 0,
       0, 0, 0, 0]) := by decide +kernel

/-- `le_set_scan_response_data_full` (335-351). -/
example : run (.leSetScanResponseData [1, 2, 3, 4, 5, 6, 7, 8, 9, 10, 11, 12, 13, 14, 15, 16, 17, 18, 19, 20, 21, 22, 23, 24, 25, 26, 27, 28,
       29, 30, 31]) =
    (.ok (),
      [1, 0x09, 0x20, 32, 31, 1, 2, 3, 4, 5, 6, 7, 8, 9, 10, 11, 12, 13, 14, 15, 16, 17, 18, 19, 20, 21, 22,
       23, 24, 25, 26, 27, 28, 29, 30, 31]) := by decide +kernel

/-- `le_set_scan_response_data_too_long` (353-362). -/
example : run (.leSetScanResponseData (List.replicate 32 0)) =
    (.err (.other (.advertisingDataTooLong 32)), []) := by decide +kernel

/-- `le_set_advertise_enable` (364-370), without `version-5-0`. -/
example : run (.leSetAdvertiseEnable true) =
    (.ok (), [1, 0x0A, 0x20, 1, 1]) := by decide +kernel

/-- `le_set_advertising_enable` (372-380), with `version-5-0`. -/
example : run (.leSetAdvertisingEnable true) =
    (.ok (), [1, 0x0A, 0x20, 1, 1]) := by decide +kernel

/-- `le_set_scan_parameters` (382-402). -/
example : (do
      let w ← (ScanWindow.startEvery (millis 21) >>= (·.openFor (millis 10))).unwrap
      .ok (run (.leSetScanParameters ⟨.passive, w, .pub, .acceptAll⟩)) : Res Unit _) =
    .ok (.ok (), [1, 0x0B, 0x20, 7, 0x00, 0x21, 0x00, 0x10, 0x00, 0x00, 0x00]) := by decide +kernel

/-- `le_set_scan_enable` (404-411). -/
example : run (.leSetScanEnable true false) =
    (.ok (), [1, 0x0C, 0x20, 2, 1, 0]) := by decide +kernel

/-- `le_create_connection_no_whitelist` (413-444). -/
example : (do
      let w ← (ScanWindow.startEvery (millis 50) >>= (·.openFor (millis 25))).unwrap
      let i ← ((((ConnectionIntervalBuilder.new.withRange (millis 50) (millis 500)).withLatency 10).withSupervisionTimeout
        (secs 15)).build).unwrap
      let l ← (ExpectedConnectionLength.new (millis 200) (millis 500)).unwrap
      .ok (run (.leCreateConnection ⟨w, .useAddress, .publicDeviceAddress ⟨⟨[1, 2, 3, 4, 5, 6], rfl⟩⟩, .pub, i, l⟩)) : Res Unit _) =
    .ok (.ok (),
      [1, 0x0D, 0x20, 25, 0x50, 0x00, 0x28, 0x00, 0x00, 0x00, 0x01, 0x02, 0x03, 0x04, 0x05, 0x06, 0x00, 0x28,
       0x00, 0x90, 0x01, 0x0A, 0x00, 0xDC, 0x05, 0x40, 0x01, 0x20, 0x03]) := by decide +kernel

/-- `le_create_connection_use_whitelist` (446-477). -/
example : (do
      let w ← (ScanWindow.startEvery (millis 50) >>= (·.openFor (millis 25))).unwrap
      let i ← ((((ConnectionIntervalBuilder.new.withRange (millis 50) (millis 500)).withLatency 10).withSupervisionTimeout
        (secs 15)).build).unwrap
      let l ← (ExpectedConnectionLength.new (millis 200) (millis 500)).unwrap
      .ok (run (.leCreateConnection ⟨w, .whiteList, .publicDeviceAddress ⟨⟨[1, 2, 3, 4, 5, 6], rfl⟩⟩, .pub, i, l⟩)) : Res Unit _) =
    .ok (.ok (),
      [1, 0x0D, 0x20, 25, 0x50, 0x00, 0x28, 0x00, 0x01, 0x00, 0x00, 0x00, 0x00, 0x00, 0x00, 0x00, 0x00, 0x28,
       0x00, 0x90, 0x01, 0x0A, 0x00, 0xDC, 0x05, 0x40, 0x01, 0x20, 0x03]) := by decide +kernel

/-- `le_add_device_to_white_list` (479-489). -/
example : run (.leAddDeviceToWhiteList (.pub ⟨⟨[1, 2, 3, 4, 5, 6], rfl⟩⟩)) =
    (.ok (), [1, 0x11, 0x20, 7, 0x00, 1, 2, 3, 4, 5, 6]) := by decide +kernel

/-- `le_add_anon_advertising_devices_to_white_list` (491-502), with `version-5-0`. -/
example : run (.leAddAnonAdvertisingDevicesToWhiteList) =
    (.ok (), [1, 0x11, 0x20, 7, 0xFF, 0, 0, 0, 0, 0, 0]) := by decide +kernel

/-- `le_remove_device_from_white_list` (504-514). -/
example : run (.leRemoveDeviceFromWhiteList (.pub ⟨⟨[1, 2, 3, 4, 5, 6], rfl⟩⟩)) =
    (.ok (), [1, 0x12, 0x20, 7, 0x00, 1, 2, 3, 4, 5, 6]) := by decide +kernel

/-- `le_remove_anon_advertising_devices_from_white_list` (516-527), with `version-5-0`. -/
example : run (.leRemoveAnonAdvertisingDevicesFromWhiteList) =
    (.ok (), [1, 0x12, 0x20, 7, 0xFF, 0, 0, 0, 0, 0, 0]) := by decide +kernel

/-- `le_connection_update` (529-555). -/
example : (do
      let i ← ((((ConnectionIntervalBuilder.new.withRange (millis 50) (millis 500)).withLatency 10).withSupervisionTimeout
        (secs 15)).build).unwrap
      let l ← (ExpectedConnectionLength.new (millis 200) (millis 500)).unwrap
      .ok (run (.leConnectionUpdate ⟨⟨0x0201⟩, i, l⟩)) : Res Unit _) =
    .ok (.ok (),
      [1, 0x13, 0x20, 14, 0x01, 0x02, 0x28, 0x00, 0x90, 0x01, 0x0A, 0x00, 0xDC, 0x05, 0x40, 0x01, 0x20, 0x03]) := by decide +kernel

/-- `le_set_host_channel_classification` (557-578). -/
example : (do
      let f ← named (unionOf channelClassification 5
        ["CH_0", "CH_4", "CH_8", "CH_12", "CH_16", "CH_20", "CH_24", "CH_28", "CH_32", "CH_36"])
      .ok (run (.leSetHostChannelClassification f)) : Res Unit _) =
    .ok (.ok (), [1, 0x14, 0x20, 5, 0x11, 0x11, 0x11, 0x11, 0x11]) := by decide +kernel

/-- `le_set_host_channel_classification_failed_empty` (580-590). -/
example : run (.leSetHostChannelClassification (BFlags.empty 5)) =
    (.err (.other (.noValidChannel)), []) := by decide +kernel

/-- `le_encrypt` (592-614). -/
example : run (.leEncrypt ⟨⟨[0x0, 0x1, 0x2, 0x3, 0x4, 0x5, 0x6, 0x7, 0x8, 0x9, 0xa, 0xb, 0xc, 0xd, 0xe, 0xf], rfl⟩,
      ⟨[0x10, 0x11, 0x12, 0x13, 0x14, 0x15, 0x16, 0x17, 0x18, 0x19, 0x1a, 0x1b, 0x1c, 0x1d, 0x1e, 0x1f], rfl⟩⟩) =
    (.ok (),
      [1, 0x17, 0x20, 32, 0x00, 0x01, 0x02, 0x03, 0x04, 0x05, 0x06, 0x07, 0x08, 0x09, 0x0a, 0x0b, 0x0c, 0x0d,
       0x0e, 0x0f, 0x10, 0x11, 0x12, 0x13, 0x14, 0x15, 0x16, 0x17, 0x18, 0x19, 0x1a, 0x1b, 0x1c, 0x1d,
       0x1e, 0x1f]) := by decide +kernel

/-- `le_start_encryption` (616-636). -/
example : run (.leStartEncryption ⟨⟨0x0201⟩, 0x0807060504030201, 0x0a09,
      ⟨[0x0, 0x1, 0x2, 0x3, 0x4, 0x5, 0x6, 0x7, 0x8, 0x9, 0xa, 0xb, 0xc, 0xd, 0xe, 0xf], rfl⟩⟩) =
    (.ok (),
      [1, 0x19, 0x20, 28, 0x01, 0x02, 0x01, 0x02, 0x03, 0x04, 0x05, 0x06, 0x07, 0x08, 0x09, 0x0a, 0x0, 0x1,
       0x2, 0x3, 0x4, 0x5, 0x6, 0x7, 0x8, 0x9, 0xa, 0xb, 0xc, 0xd, 0xe, 0xf]) := by decide +kernel

/-- `le_long_term_key_request_reply` (638-656). -/
example : run (.leLongTermKeyRequestReply ⟨0x0201⟩
      ⟨[0x0, 0x1, 0x2, 0x3, 0x4, 0x5, 0x6, 0x7, 0x8, 0x9, 0xa, 0xb, 0xc, 0xd, 0xe, 0xf], rfl⟩) =
    (.ok (),
      [1, 0x1A, 0x20, 18, 0x01, 0x02, 0x0, 0x1, 0x2, 0x3, 0x4, 0x5, 0x6, 0x7, 0x8, 0x9, 0xa, 0xb, 0xc, 0xd,
       0xe, 0xf]) := by decide +kernel

/-- `le_receiver_test` (658-663). -/
example : run (.leReceiverTest 0x27) =
    (.ok (), [1, 0x1D, 0x20, 1, 0x27]) := by decide +kernel

/-- `le_receiver_test_out_of_range` (665-671). -/
example : run (.leReceiverTest 0x28) =
    (.err (.other (.invalidTestChannel 0x28)), []) := by decide +kernel

/-- `le_transmitter_test` (673-680). -/
example : run (.leTransmitterTest 0x27 0x25 .prbS9) =
    (.ok (), [1, 0x1E, 0x20, 3, 0x27, 0x25, 0x00]) := by decide +kernel

/-- `le_transmitter_test_channel_out_of_range` (682-692). -/
example : run (.leTransmitterTest 0x28 0x25 .prbS9) =
    (.err (.other (.invalidTestChannel 0x28)), []) := by decide +kernel

/-- `le_transmitter_test_length_out_of_range` (694-704). -/
example : run (.leTransmitterTest 0x27 0x26 .prbS9) =
    (.err (.other (.invalidTestPayloadLength 0x26)), []) := by decide +kernel

end Bt.Conformance
