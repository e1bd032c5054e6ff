import Verif.Model.Duration

/-! # Model of `/repo/src/types/expected_connection_length.rs` -/

namespace Bt

/-- `ExpectedConnectionLength`: types/expected_connection_length.rs 11-13. -/
structure ExpectedConnectionLength where
  min : Duration
  max : Duration
  deriving DecidableEq, Repr

/-- `ExpectedConnectionLengthError`: types/expected_connection_length.rs 64-70. -/
inductive ExpectedConnectionLengthError where
  | tooLong (d : Duration)
  | inverted (min max : Duration)
  deriving DecidableEq, Repr

namespace ExpectedConnectionLength

/-- `duration_as_u16`: types/expected_connection_length.rs 52-59. -/
def durationAsU16 {ε : Type} (d : Duration) : Res ε UInt16 := do
  let a ← mulU32 1600 (asU32 d.asSecs)
  let s ← addU32 a (d.subsecMicros / 625)
  .ok (UInt16.ofNat s)

/-- `ABSOLUTE_MAX`: types/expected_connection_length.rs 31. -/
def ABSOLUTE_MAX : Duration := Duration.micros 40959375

/-- `ExpectedConnectionLength::new`: types/expected_connection_length.rs 23-38. -/
def new (min max : Duration) : Res ExpectedConnectionLengthError ExpectedConnectionLength := do
  if max.lt' min then .err (.inverted min max)
  else do
    let m ← durationAsU16 ABSOLUTE_MAX
    Res.assert (m == 0xFFFF)
    if ABSOLUTE_MAX.lt' max then .err (.tooLong max)
    else .ok ⟨min, max⟩

/-- `ExpectedConnectionLength::copy_into_slice`: types/expected_connection_length.rs 45-50. -/
def copyIntoSlice {ε : Type} (x : ExpectedConnectionLength) (bytes : List UInt8) :
    Res ε (List UInt8) := do
  Res.assert (decide (4 ≤ bytes.length))
  let a ← durationAsU16 x.min
  let bytes ← withRange bytes 0 2 (fun s => writeU16 s a)
  let b ← durationAsU16 x.max
  withRange bytes 2 4 (fun s => writeU16 s b)

end ExpectedConnectionLength

end Bt
