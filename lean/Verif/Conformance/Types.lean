import Verif.Model.Types.ConnectionInterval
import Verif.Model.Types.AdvertisingInterval
import Verif.Model.Types.ScanWindow
import Verif.Model.Types.ExpectedConnectionLength
import Verif.Model.Types.Advertisement

/-! # The crate's own tests of its types, run on the model

`/repo/tests/{connection_interval,expected_connection_length,advertisement,advertising_interval,scan_window}.rs`,
test by test: the model gives the results that the crate's tests demand. These are tests of the transcription,
not proofs of properties; they tie the model to the behaviour that the authors of the crate observed. -/

namespace Bt.Conformance

open Duration (millis micros secs)

/-! ## tests/connection_interval.rs -/

/-- The builder calls of the tests. -/
private def conn (min max : Duration) (latency : UInt16) (timeout : Duration) :
    Res ConnectionIntervalError ConnectionInterval :=
  (((ConnectionIntervalBuilder.new.withRange min max).withLatency latency).withSupervisionTimeout timeout).build

/-- `valid` (8-23). -/
example : (do (← conn (millis 50) (millis 500) 10 (secs 15)).copyIntoSlice (List.replicate 8 0)) =
    .ok [0x28, 0x00, 0x90, 0x01, 0x0A, 0x00, 0xDC, 0x05] := by decide +kernel

/-- `incomplete` (25-54). -/
example : ((ConnectionIntervalBuilder.new.withLatency 10).withSupervisionTimeout (secs 15)).build =
    .err .incomplete ∧
    ((ConnectionIntervalBuilder.new.withRange (millis 50) (millis 500)).withSupervisionTimeout (secs 15)).build =
    .err .incomplete ∧
    ((ConnectionIntervalBuilder.new.withRange (millis 50) (millis 500)).withLatency 10).build =
    .err .incomplete := by decide +kernel

/-- `too_short` (56-69). -/
example : conn (millis 4) (millis 1000) 10 (secs 15) = .err (.intervalTooShort (millis 4)) := by decide +kernel

/-- `too_long` (71-84). -/
example : conn (millis 100) (millis 4001) 10 (secs 15) = .err (.intervalTooLong (millis 4001)) := by
  decide +kernel

/-- `inverted` (86-102). -/
example : conn (millis 500) (millis 499) 10 (secs 15) = .err (.intervalInverted (millis 500) (millis 499)) := by
  decide +kernel

/-- `bad_conn_latency` (104-114). -/
example : conn (millis 50) (millis 500) 500 (secs 15) = .err (.badConnectionLatency 500) := by decide +kernel

/-- `supervision_timeout_too_short_absolute` (116-135). -/
example : conn (micros 7500) (micros 7500) 0 (millis 99) =
    .err (.supervisionTimeoutTooShort (millis 99) (millis 100)) := by decide +kernel

/-- `supervision_timeout_too_short_relative` (137-155). -/
example : conn (millis 50) (millis 500) 10 (millis 10999) =
    .err (.supervisionTimeoutTooShort (millis 10999) (secs 11)) := by decide +kernel

/-- `supervision_timeout_too_long` (157-170). -/
example : conn (millis 50) (millis 500) 10 (millis 32001) =
    .err (.supervisionTimeoutTooLong (millis 32001)) := by decide +kernel

/-- `impossible_supervision_timeout` (172-185). -/
example : conn (millis 50) (secs 4) 4 (secs 32) = .err (.impossibleSupervisionTimeout (secs 40)) := by
  decide +kernel

/-- `from_bytes_valid` (187-194). -/
example : (ConnectionInterval.fromBytes [0x90, 0x00, 0x90, 0x01, 0x0A, 0x00, 0xDC, 0x05] >>=
    (·.copyIntoSlice (List.replicate 8 0))) = .ok [0x90, 0x00, 0x90, 0x01, 0x0A, 0x00, 0xDC, 0x05] := by decide +kernel

/-- `fixed_from_bytes_valid` (196-206). -/
example : FixedConnectionInterval.fromBytes [0x90, 0x01, 0x0A, 0x00, 0xDC, 0x05] =
    .ok ⟨millis (0x190 * 5 / 4), 0x0A, millis (10 * 0x05DC)⟩ := by decide +kernel

/-- `from_bytes_interval_too_short` (208-216). -/
example : ConnectionInterval.fromBytes [0x05, 0x00, 0x09, 0x00, 0x0A, 0x00, 0xDC, 0x05] =
    .err (.intervalTooShort (micros 6250)) := by decide +kernel

/-- `fixed_from_bytes_interval_too_short` (218-226). -/
example : FixedConnectionInterval.fromBytes [0x05, 0x00, 0x0A, 0x00, 0xDC, 0x05] =
    .err (.intervalTooShort (micros 6250)) := by decide +kernel

/-- `from_bytes_interval_too_long` (228-236). -/
example : ConnectionInterval.fromBytes [0x90, 0x00, 0x81, 0x0c, 0x0A, 0x00, 0xDC, 0x05] =
    .err (.intervalTooLong (micros 4001250)) := by decide +kernel

/-- `fixed_from_bytes_interval_too_long` (238-246). -/
example : FixedConnectionInterval.fromBytes [0x81, 0x0c, 0x0A, 0x00, 0xDC, 0x05] =
    .err (.intervalTooLong (micros 4001250)) := by decide +kernel

/-- `from_bytes_bad_connection_latency` (248-253). -/
example : ConnectionInterval.fromBytes [0x90, 0x00, 0x90, 0x01, 0xF4, 0x01, 0xDC, 0x05] =
    .err (.badConnectionLatency 500) := by decide +kernel

/-- `fixed_from_bytes_bad_connection_latency` (255-260). -/
example : FixedConnectionInterval.fromBytes [0x90, 0x01, 0xF4, 0x01, 0xDC, 0x05] =
    .err (.badConnectionLatency 500) := by decide +kernel

/-- `from_bytes_supervision_timeout_too_short_absolute` and its copy `fixed_…` (262-286). -/
example : ConnectionInterval.fromBytes [0x06, 0x00, 0x06, 0x00, 0x00, 0x00, 0x09, 0x00] =
    .err (.supervisionTimeoutTooShort (millis 90) (millis 100)) := by decide +kernel

/-- `from_bytes_supervision_timeout_too_short_relative` (288-299). -/
example : ConnectionInterval.fromBytes [0x90, 0x00, 0x90, 0x01, 0x0A, 0x00, 0x4b, 0x04] =
    .err (.supervisionTimeoutTooShort (millis 10990) (secs 11)) := by decide +kernel

/-- `fixed_from_bytes_supervision_timeout_too_short_relative` (301-312). -/
example : FixedConnectionInterval.fromBytes [0x90, 0x01, 0x0A, 0x00, 0x4b, 0x04] =
    .err (.supervisionTimeoutTooShort (millis 10990) (secs 11)) := by decide +kernel

/-- `from_bytes_supervision_timeout_too_long` (314-322). -/
example : ConnectionInterval.fromBytes [0x90, 0x00, 0x90, 0x01, 0x0A, 0x00, 0x81, 0x0c] =
    .err (.supervisionTimeoutTooLong (millis 32010)) := by decide +kernel

/-- `fixed_from_bytes_supervision_timeout_too_long` (324-332). -/
example : FixedConnectionInterval.fromBytes [0x90, 0x01, 0x0A, 0x00, 0x81, 0x0c] =
    .err (.supervisionTimeoutTooLong (millis 32010)) := by decide +kernel

/-- `from_bytes_supervision_timeout_impossible` (334-342). -/
example : ConnectionInterval.fromBytes [0x90, 0x00, 0x80, 0x0C, 0x03, 0x00, 0x80, 0x0c] =
    .err (.impossibleSupervisionTimeout (millis 32000)) := by decide +kernel

/-- `fixed_from_bytes_supervision_timeout_impossible` (344-352). -/
example : FixedConnectionInterval.fromBytes [0x80, 0x0C, 0x03, 0x00, 0x80, 0x0c] =
    .err (.impossibleSupervisionTimeout (millis 32000)) := by decide +kernel

/-! ## tests/expected_connection_length.rs -/

/-- `valid` (6-14). -/
example : (do (← ExpectedConnectionLength.new (millis 200) (millis 500)).copyIntoSlice (List.replicate 4 0)) =
    .ok [0x40, 0x01, 0x20, 0x03] := by decide +kernel

/-- `interval_too_long` (16-28). -/
example : ExpectedConnectionLength.new (millis 200) (micros 40959376) = .err (.tooLong (micros 40959376)) := by
  decide +kernel

/-- `inverted` (30-42). -/
example : ExpectedConnectionLength.new (millis 400) (millis 399) =
    .err (.inverted (millis 400) (millis 399)) := by decide +kernel

/-! ## tests/advertisement.rs -/

/-- What the tests look at: the bytes written and their number. -/
private def written (a : Advertisement) : Res Empty (List UInt8 × Nat) := do
  let (o, l) ← a.copyIntoSlice (List.replicate 31 0)
  .ok (o.take l, l)

/-- `complete_name` (5-17). -/
example : written (.completeLocalName "Pedometer".toUTF8.toList) =
    .ok ([0x0a, 0x09, 0x50, 0x65, 0x64, 0x6f, 0x6d, 0x65, 0x74, 0x65, 0x72], 11) := by decide +kernel

/-- `ibeacon` (19-35). -/
example : written (.manufacturerSpecificData 0x4c
      [0x2, 0x15, 0xfb, 0xb, 0x57, 0xa2, 0x82, 0x28, 0x44, 0xcd, 0x91, 0x3a, 0x94, 0xa1, 0x22,
        0xba, 0x12, 0x6, 0x0, 0x1, 0x0, 0x2, 0xd1]) =
    .ok ([0x1a, 0xff, 0x4c, 0x0, 0x2, 0x15, 0xfb, 0xb, 0x57, 0xa2, 0x82, 0x28, 0x44, 0xcd, 0x91,
        0x3a, 0x94, 0xa1, 0x22, 0xba, 0x12, 0x6, 0x0, 0x1, 0x0, 0x2, 0xd1], 27) := by decide +kernel

/-- `eddystone` (37-50). -/
example : written (.serviceData16BitUuid 0xfeaa
      ([0x10, 0x00, 0x01] ++ "rust-lang".toUTF8.toList ++ [0x01])) =
    .ok ([0x10, 0x16, 0xaa, 0xfe, 0x10, 0x0, 0x01, 0x72, 0x75, 0x73, 0x74, 0x2d, 0x6c, 0x61, 0x6e,
        0x67, 0x01], 17) := by decide +kernel

/-! ## tests/advertising_interval.rs -/

/-- `valid` (6-17), in every configuration. -/
example : ∀ v42 v50, (do (← (AdvertisingInterval.forType .connectableUndirected).withRange ⟨v42, v50⟩
      (millis 21) (millis 1000)).copyIntoSlice (List.replicate 5 0)) =
    .ok [0x21, 0x00, 0x40, 0x06, 0x00] := by decide +kernel

/-- `higher_min_scannable_undirected` (19-30), without `version-5-0`. -/
example : ∀ v42, (AdvertisingInterval.forType .scannableUndirected).withRange ⟨v42, false⟩
      (millis 99) (millis 1000) = .err (.tooShort (millis 99)) := by decide +kernel

/-- `normal_min_scannable_undirected` (32-44), with `version-5-0`. -/
example : ∀ v42, (do (← (AdvertisingInterval.forType .scannableUndirected).withRange ⟨v42, true⟩
      (millis 99) (millis 1000)).copyIntoSlice (List.replicate 5 0)) =
    .ok [0x9E, 0x00, 0x40, 0x06, 0x02] := by decide +kernel

/-- `connectable_directed_high_duty_cycle_without_range` (46-54). -/
example : ((AdvertisingInterval.forType .connectableDirectedHighDutyCycle).build >>=
      (·.copyIntoSlice (List.replicate 5 0))) = .ok [0x00, 0x00, 0x00, 0x00, 0x01] := by decide +kernel

/-- `connectable_directed_high_duty_cycle_with_range` (56-66). -/
example : ∀ v42 v50, (do
      (← (AdvertisingInterval.forType .connectableDirectedHighDutyCycle).withRange ⟨v42, v50⟩
        (millis 99) (millis 1000)).copyIntoSlice (List.replicate 5 0)) =
    .ok [0x00, 0x00, 0x00, 0x00, 0x01] := by decide +kernel

/-- `other_type_without_range` (68-75). -/
example : (AdvertisingInterval.forType .scannableUndirected).build = .err .noRange := by decide +kernel

/-- `interval_too_short` (77-87). -/
example : ∀ v42 v50, (AdvertisingInterval.forType .connectableUndirected).withRange ⟨v42, v50⟩
      (millis 19) (millis 1000) = .err (.tooShort (millis 19)) := by decide +kernel

/-- `interval_too_long` (89-99). -/
example : ∀ v42 v50, (AdvertisingInterval.forType .connectableUndirected).withRange ⟨v42, v50⟩
      (millis 100) (millis 10241) = .err (.tooLong (millis 10241)) := by decide +kernel

/-- `inverted` (101-111). -/
example : ∀ v42 v50, (AdvertisingInterval.forType .connectableUndirected).withRange ⟨v42, v50⟩
      (millis 500) (millis 499) = .err (.inverted (millis 500) (millis 499)) := by decide +kernel

/-! ## tests/scan_window.rs -/

/-- `ScanWindow::start_every(…).unwrap().open_for(…)`. -/
private def scan (interval window : Duration) : Res ScanWindowError ScanWindow := do
  (← ScanWindow.startEvery interval).openFor window

/-- `valid` (6-14). -/
example : ∃ w, scan (millis 10) (millis 5) = .ok w ∧ w.interval = millis 10 ∧ w.window = millis 5 :=
  ⟨⟨millis 10, millis 5⟩, by decide +kernel⟩

/-- `interval_too_short` (16-22). -/
example : ScanWindow.startEvery (millis 2) = .err (.tooShort (millis 2)) := by decide +kernel

/-- `interval_too_long` (24-30). -/
example : ScanWindow.startEvery (millis 10241) = .err (.tooLong (millis 10241)) := by decide +kernel

/-- `window_too_short` (32-40). -/
example : (∃ b, ScanWindow.startEvery (millis 10) = .ok b) ∧
    scan (millis 10) (millis 2) = .err (.tooShort (millis 2)) :=
  ⟨⟨⟨millis 10⟩, by decide +kernel⟩, by decide +kernel⟩

/-- `inverted` (42-56). -/
example : scan (millis 100) (millis 101) = .err (.inverted (millis 100) (millis 101)) := by decide +kernel

/-- `inverted_and_window_too_long` (58-72). -/
example : scan (millis 100) (millis 10241) = .err (.inverted (millis 100) (millis 10241)) := by decide +kernel

/-- `copy_into_slice` (74-83). -/
example : (do (← scan (millis 10) (millis 5)).copyIntoSlice (List.replicate 4 0)) =
    .ok [0x10, 0x00, 0x08, 0x00] := by decide +kernel

end Bt.Conformance
