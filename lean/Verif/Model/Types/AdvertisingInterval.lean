import Verif.Model.Duration

/-! # Model of `/repo/src/types/advertising_interval.rs` -/

namespace Bt

/-- `AdvertisingType`: types/advertising_interval.rs 165-178. -/
inductive AdvertisingType where
  | connectableUndirected
  | connectableDirectedHighDutyCycle
  | scannableUndirected
  | nonConnectableUndirected
  | connectableDirectedLowDutyCycle
  deriving DecidableEq, Repr

/-- `adv_type as u8`: discriminants, types/advertising_interval.rs 169-177. -/
def AdvertisingType.toU8 : AdvertisingType → UInt8
  | .connectableUndirected => 0x00
  | .connectableDirectedHighDutyCycle => 0x01
  | .scannableUndirected => 0x02
  | .nonConnectableUndirected => 0x03
  | .connectableDirectedLowDutyCycle => 0x04

/-- `AdvertisingInterval`: types/advertising_interval.rs 22-26. The getter `advertising_type` (68-70) returns
the field. -/
structure AdvertisingInterval where
  min : Duration
  max : Duration
  advertisingType : AdvertisingType
  deriving DecidableEq, Repr

/-- `AdvertisingIntervalError`: types/advertising_interval.rs 149-160. -/
inductive AdvertisingIntervalError where
  | tooShort (d : Duration)
  | tooLong (d : Duration)
  | inverted (min max : Duration)
  | noRange
  deriving DecidableEq, Repr

/-- `AdvertisingIntervalBuilder`: types/advertising_interval.rs 74-76. -/
structure AdvertisingIntervalBuilder where
  advertisingType : AdvertisingType
  deriving DecidableEq, Repr

namespace AdvertisingInterval

/-- `AdvertisingInterval::for_type`: types/advertising_interval.rs 30-34. -/
def forType (t : AdvertisingType) : AdvertisingIntervalBuilder := ⟨t⟩

/-- `duration_as_u16`: types/advertising_interval.rs 58-65. -/
def durationAsU16 {ε : Type} (d : Duration) : Res ε UInt16 := do
  let a ← mulU32 1600 (asU32 d.asSecs)
  let s ← addU32 a (d.subsecMicros / 625)
  .ok (UInt16.ofNat s)

/-- `AdvertisingInterval::copy_into_slice`: types/advertising_interval.rs 48-56. -/
def copyIntoSlice {ε : Type} (x : AdvertisingInterval) (bytes : List UInt8) :
    Res ε (List UInt8) := do
  let bytes ←
    if x.advertisingType = .connectableDirectedHighDutyCycle then
      copyRange bytes 0 4 [0, 0, 0, 0]
    else do
      let a ← durationAsU16 x.min
      let bytes ← withRange bytes 0 2 (fun s => writeU16 s a)
      let b ← durationAsU16 x.max
      withRange bytes 2 4 (fun s => writeU16 s b)
  setByte bytes 4 x.advertisingType.toU8

end AdvertisingInterval

namespace AdvertisingIntervalBuilder

/-- `AdvertisingIntervalBuilder::with_range`: types/advertising_interval.rs 91-124. -/
def withRange (c : Cfg) (b : AdvertisingIntervalBuilder) (min max : Duration) :
    Res AdvertisingIntervalError AdvertisingInterval :=
  if min.lt' (Duration.millis 20) then .err (.tooShort min)
  else if !c.v50 && decide (b.advertisingType = .scannableUndirected)
      && min.lt' (Duration.millis 100) then .err (.tooShort min)
  else if (Duration.millis 10240).lt' max then .err (.tooLong max)
  else if max.lt' min then .err (.inverted min max)
  else .ok ⟨min, max, b.advertisingType⟩

/-- `AdvertisingIntervalBuilder::build`: types/advertising_interval.rs 135-144. -/
def build (b : AdvertisingIntervalBuilder) : Res AdvertisingIntervalError AdvertisingInterval :=
  if b.advertisingType = .connectableDirectedHighDutyCycle then
    .ok ⟨Duration.secs 0, Duration.secs 0, b.advertisingType⟩
  else .err .noRange

end AdvertisingIntervalBuilder

end Bt
