import Verif.Model.Duration

/-! # Model of `/repo/src/types/connection_interval.rs` -/

namespace Bt

/-- `ConnectionInterval`: types/connection_interval.rs 11-15. The getters (19-31) return the fields. -/
structure ConnectionInterval where
  intervalMin : Duration
  intervalMax : Duration
  connLatency : UInt16
  supervisionTimeout : Duration
  deriving DecidableEq, Repr

/-- `ConnectionIntervalError`: types/connection_interval.rs 257-281. -/
inductive ConnectionIntervalError where
  | incomplete
  | intervalTooShort (d : Duration)
  | intervalTooLong (d : Duration)
  | intervalInverted (min max : Duration)
  | badConnectionLatency (l : UInt16)
  | supervisionTimeoutTooShort (given minimum : Duration)
  | supervisionTimeoutTooLong (d : Duration)
  | impossibleSupervisionTimeout (d : Duration)
  deriving DecidableEq, Repr

/-- `ConnectionIntervalBuilder`: types/connection_interval.rs 108-112. -/
structure ConnectionIntervalBuilder where
  interval : Option (Duration × Duration)
  connLatency : Option UInt16
  supervisionTimeout : Option Duration
  deriving DecidableEq, Repr

namespace ConnectionIntervalBuilder

/-- `ConnectionIntervalBuilder::new`: types/connection_interval.rs 116-122. -/
def new : ConnectionIntervalBuilder := ⟨none, none, none⟩

/-- `with_range`: types/connection_interval.rs 133-136. -/
def withRange (b : ConnectionIntervalBuilder) (min max : Duration) : ConnectionIntervalBuilder :=
  { b with interval := some (min, max) }

/-- `with_latency`: types/connection_interval.rs 146-149. -/
def withLatency (b : ConnectionIntervalBuilder) (latency : UInt16) : ConnectionIntervalBuilder :=
  { b with connLatency := some latency }

/-- `with_supervision_timeout`: types/connection_interval.rs 159-165. -/
def withSupervisionTimeout (b : ConnectionIntervalBuilder) (timeout : Duration) :
    ConnectionIntervalBuilder :=
  { b with supervisionTimeout := some timeout }

/-- `build`: types/connection_interval.rs 192-252. The three `is_none` tests and the later `unwrap`s
are one `match`. -/
def build (b : ConnectionIntervalBuilder) : Res ConnectionIntervalError ConnectionInterval :=
  match b.interval, b.connLatency, b.supervisionTimeout with
  | some (imin, imax), some latency, some timeout =>
    if imin.lt' (Duration.micros 7500) then .err (.intervalTooShort imin)
    else if (Duration.secs 4).lt' imax then .err (.intervalTooLong imax)
    else if imax.lt' imin then .err (.intervalInverted imin imax)
    else if latency > 0x1F3 then .err (.badConnectionLatency latency)
    else do
      let k ← addU32 1 latency.toNat
      let t ← imax.mul k
      let computed ← t.mul 2
      if (Duration.secs 32).le' computed then .err (.impossibleSupervisionTimeout computed)
      else
        let timeoutMin := Duration.max computed (Duration.millis 100)
        if timeout.le' timeoutMin then .err (.supervisionTimeoutTooShort timeout timeoutMin)
        else if (Duration.secs 32).lt' timeout then .err (.supervisionTimeoutTooLong timeout)
        else .ok ⟨imin, imax, latency, timeout⟩
  | _, _, _ => .err .incomplete

end ConnectionIntervalBuilder

namespace ConnectionInterval

/-- `interval_as_u16`: types/connection_interval.rs 89-97. -/
def intervalAsU16 {ε : Type} (d : Duration) : Res ε UInt16 := do
  let a ← mulU64 800 d.asSecs
  let m ← mulU32 4 d.subsecMillis
  let s ← addU32 (asU32 a) (m / 5)
  .ok (UInt16.ofNat s)

/-- `timeout_as_u16`: types/connection_interval.rs 99-103. -/
def timeoutAsU16 {ε : Type} (d : Duration) : Res ε UInt16 := do
  let a ← mulU64 100 d.asSecs
  let s ← addU32 (asU32 a) (d.subsecMillis / 10)
  .ok (UInt16.ofNat s)

/-- `ConnectionInterval::copy_into_slice`: types/connection_interval.rs 44-54. -/
def copyIntoSlice {ε : Type} (x : ConnectionInterval) (bytes : List UInt8) :
    Res ε (List UInt8) := do
  Res.assert (decide (8 ≤ bytes.length))
  let a ← intervalAsU16 x.intervalMin
  let bytes ← withRange bytes 0 2 (fun s => writeU16 s a)
  let b ← intervalAsU16 x.intervalMax
  let bytes ← withRange bytes 2 4 (fun s => writeU16 s b)
  let bytes ← withRange bytes 4 6 (fun s => writeU16 s x.connLatency)
  let t ← timeoutAsU16 x.supervisionTimeout
  withRange bytes 6 8 (fun s => writeU16 s t)

/-- `ConnectionInterval::from_bytes`: types/connection_interval.rs 71-87. -/
def fromBytes (bytes : List UInt8) : Res ConnectionIntervalError ConnectionInterval := do
  Res.assert (decide (8 ≤ bytes.length))
  let a ← readU16 (← slice bytes 0 2)
  let intervalMin ← (Duration.micros 1250).mul a.toNat
  let b ← readU16 (← slice bytes 2 4)
  let intervalMax ← (Duration.micros 1250).mul b.toNat
  let latency ← readU16 (← slice bytes 4 6)
  let t ← readU16 (← slice bytes 6 8)
  let timeout ← (Duration.millis 10).mul t.toNat
  (((ConnectionIntervalBuilder.new.withRange intervalMin intervalMax).withLatency
    latency).withSupervisionTimeout timeout).build

end ConnectionInterval

/-- `FixedConnectionInterval`: types/connection_interval.rs 286-290. The getters (330-342) return the
fields. -/
structure FixedConnectionInterval where
  interval : Duration
  connLatency : UInt16
  supervisionTimeout : Duration
  deriving DecidableEq, Repr

/-- `FixedConnectionInterval::from_bytes`: types/connection_interval.rs 307-327. -/
def FixedConnectionInterval.fromBytes (bytes : List UInt8) :
    Res ConnectionIntervalError FixedConnectionInterval := do
  Res.assert (decide (6 ≤ bytes.length))
  let a ← readU16 (← slice bytes 0 2)
  let interval ← (Duration.micros 1250).mul a.toNat
  let latency ← readU16 (← slice bytes 2 4)
  let t ← readU16 (← slice bytes 4 6)
  let timeout ← (Duration.millis 10).mul t.toNat
  let _ ← (((ConnectionIntervalBuilder.new.withRange interval interval).withLatency
    latency).withSupervisionTimeout timeout).build
  .ok ⟨interval, latency, timeout⟩

end Bt
