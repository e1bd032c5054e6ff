import Verif.Model.Duration

/-! # Model of `/repo/src/types/scan_window.rs` -/

namespace Bt

/-- `ScanWindow`: types/scan_window.rs 14-17. -/
structure ScanWindow where
  intervalWidth : Duration
  windowWidth : Duration
  deriving DecidableEq, Repr

/-- `ScanWindowError`: types/scan_window.rs 114-128. -/
inductive ScanWindowError where
  | tooShort (d : Duration)
  | tooLong (d : Duration)
  | inverted (interval window : Duration)
  deriving DecidableEq, Repr

/-- `ScanWindowBuilder`: types/scan_window.rs 83-85. -/
structure ScanWindowBuilder where
  interval : Duration
  deriving DecidableEq, Repr

namespace ScanWindow

/-- `ScanWindow::interval`: types/scan_window.rs 22-24. -/
def interval (w : ScanWindow) : Duration := w.intervalWidth

/-- `ScanWindow::window`: types/scan_window.rs 27-29. -/
def window (w : ScanWindow) : Duration := w.windowWidth

/-- `validate`: types/scan_window.rs 58-70. -/
def validate (d : Duration) : Res ScanWindowError Duration :=
  if d.lt' (Duration.micros 2500) then .err (.tooShort d)
  else if (Duration.millis 10240).lt' d then .err (.tooLong d)
  else .ok d

/-- `duration_as_u16`: types/scan_window.rs 72-79. -/
def durationAsU16 {ε : Type} (d : Duration) : Res ε UInt16 := do
  let a ← mulU32 1600 (asU32 d.asSecs)
  let s ← addU32 a (d.subsecMicros / 625)
  .ok (UInt16.ofNat s)

/-- `ScanWindow::start_every`: types/scan_window.rs 52-56. -/
def startEvery (interval : Duration) : Res ScanWindowError ScanWindowBuilder := do
  let i ← validate interval
  .ok ⟨i⟩

/-- `ScanWindow::copy_into_slice`: types/scan_window.rs 36-41. -/
def copyIntoSlice {ε : Type} (w : ScanWindow) (bytes : List UInt8) : Res ε (List UInt8) := do
  Res.assert (decide (4 ≤ bytes.length))
  let a ← durationAsU16 w.intervalWidth
  let bytes ← withRange bytes 0 2 (fun s => writeU16 s a)
  let b ← durationAsU16 w.windowWidth
  withRange bytes 2 4 (fun s => writeU16 s b)

end ScanWindow

/-- `ScanWindowBuilder::open_for`: types/scan_window.rs 97-109. -/
def ScanWindowBuilder.openFor (b : ScanWindowBuilder) (window : Duration) :
    Res ScanWindowError ScanWindow :=
  if b.interval.lt' window then .err (.inverted b.interval window)
  else do
    let w ← ScanWindow.validate window
    .ok ⟨b.interval, w⟩

end Bt
