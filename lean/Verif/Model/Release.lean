import Verif.Model.Types.ConnectionInterval
import Verif.Model.Types.AdvertisingInterval
import Verif.Model.Types.ScanWindow
import Verif.Model.Types.ExpectedConnectionLength

/-! # The functions with integer arithmetic, compiled without overflow checks

The rest of the model follows a debug build, in which an operation on `u32` or `u64` that overflows panics.
In a release build the result is reduced modulo 2^32 or 2^64. This file has the functions of `/repo/src/types`
that contain such operations, or call one that does, in the release build. Operations on `Duration` panic on
overflow in both builds. For operations on `usize` see `Verif/Model/Target.lean`. -/

namespace Bt.Release

/-- `a * b` on `u32`. -/
def mulU32 (a b : Nat) : Nat := (a * b) % 2 ^ 32

/-- `a + b` on `u32`. -/
def addU32 (a b : Nat) : Nat := (a + b) % 2 ^ 32

/-- `a * b` on `u64`. -/
def mulU64 (a b : Nat) : Nat := (a * b) % 2 ^ 64

/-- `build`: types/connection_interval.rs 192-252. -/
def buildConnection (b : ConnectionIntervalBuilder) : Res ConnectionIntervalError ConnectionInterval :=
  match b.interval, b.connLatency, b.supervisionTimeout with
  | some (imin, imax), some latency, some timeout =>
    if imin.lt' (Duration.micros 7500) then .err (.intervalTooShort imin)
    else if (Duration.secs 4).lt' imax then .err (.intervalTooLong imax)
    else if imax.lt' imin then .err (.intervalInverted imin imax)
    else if latency > 0x1F3 then .err (.badConnectionLatency latency)
    else do
      let t ← imax.mul (addU32 1 latency.toNat)
      let computed ← t.mul 2
      if (Duration.secs 32).le' computed then .err (.impossibleSupervisionTimeout computed)
      else
        let timeoutMin := Duration.max computed (Duration.millis 100)
        if timeout.le' timeoutMin then .err (.supervisionTimeoutTooShort timeout timeoutMin)
        else if (Duration.secs 32).lt' timeout then .err (.supervisionTimeoutTooLong timeout)
        else .ok ⟨imin, imax, latency, timeout⟩
  | _, _, _ => .err .incomplete

/-- `interval_as_u16`: types/connection_interval.rs 89-97. -/
def intervalAsU16 (d : Duration) : UInt16 :=
  UInt16.ofNat (addU32 (asU32 (mulU64 800 d.asSecs)) (mulU32 4 d.subsecMillis / 5))

/-- `timeout_as_u16`: types/connection_interval.rs 99-103. -/
def timeoutAsU16 (d : Duration) : UInt16 :=
  UInt16.ofNat (addU32 (asU32 (mulU64 100 d.asSecs)) (d.subsecMillis / 10))

/-- `duration_as_u16`: types/advertising_interval.rs 58-65, types/scan_window.rs 72-79 and
types/expected_connection_length.rs 52-59, three copies of the same function. -/
def durationAsU16 (d : Duration) : UInt16 :=
  UInt16.ofNat (addU32 (mulU32 1600 (asU32 d.asSecs)) (d.subsecMicros / 625))

/-- `ConnectionInterval::copy_into_slice`: types/connection_interval.rs 44-54. -/
def copyConnection {ε : Type} (x : ConnectionInterval) (bytes : List UInt8) : Res ε (List UInt8) := do
  Res.assert (decide (8 ≤ bytes.length))
  let bytes ← withRange bytes 0 2 (fun s => writeU16 s (intervalAsU16 x.intervalMin))
  let bytes ← withRange bytes 2 4 (fun s => writeU16 s (intervalAsU16 x.intervalMax))
  let bytes ← withRange bytes 4 6 (fun s => writeU16 s x.connLatency)
  withRange bytes 6 8 (fun s => writeU16 s (timeoutAsU16 x.supervisionTimeout))

/-- `ConnectionInterval::from_bytes`: types/connection_interval.rs 71-87. -/
def connectionFromBytes (bytes : List UInt8) : Res ConnectionIntervalError ConnectionInterval := do
  Res.assert (decide (8 ≤ bytes.length))
  let a ← readU16 (← slice bytes 0 2)
  let intervalMin ← (Duration.micros 1250).mul a.toNat
  let b ← readU16 (← slice bytes 2 4)
  let intervalMax ← (Duration.micros 1250).mul b.toNat
  let latency ← readU16 (← slice bytes 4 6)
  let t ← readU16 (← slice bytes 6 8)
  let timeout ← (Duration.millis 10).mul t.toNat
  buildConnection (((ConnectionIntervalBuilder.new.withRange intervalMin intervalMax).withLatency
    latency).withSupervisionTimeout timeout)

/-- `FixedConnectionInterval::from_bytes`: types/connection_interval.rs 307-327. -/
def fixedFromBytes (bytes : List UInt8) : Res ConnectionIntervalError FixedConnectionInterval := do
  Res.assert (decide (6 ≤ bytes.length))
  let a ← readU16 (← slice bytes 0 2)
  let interval ← (Duration.micros 1250).mul a.toNat
  let latency ← readU16 (← slice bytes 2 4)
  let t ← readU16 (← slice bytes 4 6)
  let timeout ← (Duration.millis 10).mul t.toNat
  let _ ← buildConnection (((ConnectionIntervalBuilder.new.withRange interval interval).withLatency
    latency).withSupervisionTimeout timeout)
  .ok ⟨interval, latency, timeout⟩

/-- `AdvertisingInterval::copy_into_slice`: types/advertising_interval.rs 48-56. -/
def copyAdvertising {ε : Type} (x : AdvertisingInterval) (bytes : List UInt8) : Res ε (List UInt8) := do
  let bytes ←
    if x.advertisingType = .connectableDirectedHighDutyCycle then
      copyRange bytes 0 4 [0, 0, 0, 0]
    else do
      let bytes ← withRange bytes 0 2 (fun s => writeU16 s (durationAsU16 x.min))
      withRange bytes 2 4 (fun s => writeU16 s (durationAsU16 x.max))
  setByte bytes 4 x.advertisingType.toU8

/-- `ScanWindow::copy_into_slice`: types/scan_window.rs 36-41. -/
def copyScanWindow {ε : Type} (w : ScanWindow) (bytes : List UInt8) : Res ε (List UInt8) := do
  Res.assert (decide (4 ≤ bytes.length))
  let bytes ← withRange bytes 0 2 (fun s => writeU16 s (durationAsU16 w.intervalWidth))
  withRange bytes 2 4 (fun s => writeU16 s (durationAsU16 w.windowWidth))

/-- `ExpectedConnectionLength::new`: types/expected_connection_length.rs 23-38. -/
def newLength (min max : Duration) : Res ExpectedConnectionLengthError ExpectedConnectionLength :=
  if max.lt' min then .err (.inverted min max)
  else do
    Res.assert (durationAsU16 ExpectedConnectionLength.ABSOLUTE_MAX == 0xFFFF)
    if ExpectedConnectionLength.ABSOLUTE_MAX.lt' max then .err (.tooLong max)
    else .ok ⟨min, max⟩

/-- `ExpectedConnectionLength::copy_into_slice`: types/expected_connection_length.rs 45-50. -/
def copyLength {ε : Type} (x : ExpectedConnectionLength) (bytes : List UInt8) : Res ε (List UInt8) := do
  Res.assert (decide (4 ≤ bytes.length))
  let bytes ← withRange bytes 0 2 (fun s => writeU16 s (durationAsU16 x.min))
  withRange bytes 2 4 (fun s => writeU16 s (durationAsU16 x.max))

end Bt.Release
