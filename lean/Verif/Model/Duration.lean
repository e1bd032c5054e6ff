import Verif.Basic

/-! # `core::time::Duration` and checked integer arithmetic

Documented behaviour of the Rust core library: a duration is a number of whole nanoseconds below
`2^64` seconds.  Integer overflow of `+` and `*` is a panic (debug build); the properties show it does
not occur, so the wrapping release build behaves the same. -/

namespace Bt

/-- First number of nanoseconds that does not fit in a `Duration` (`u64` seconds). -/
def durationLimit : Nat := 2 ^ 64 * 1000000000

/-- `core::time::Duration`. -/
structure Duration where
  ns : Nat
  lt : ns < durationLimit
  deriving DecidableEq, Repr

namespace Duration

theorem ext' {a b : Duration} (h : a.ns = b.ns) : a = b := by
  cases a; cases b; cases h; rfl

/-- `Duration::from_micros` for a constant. -/
def micros (n : Nat) (h : n * 1000 < durationLimit := by decide) : Duration := ⟨n * 1000, h⟩

/-- `Duration::from_millis` for a constant. -/
def millis (n : Nat) (h : n * 1000000 < durationLimit := by decide) : Duration := ⟨n * 1000000, h⟩

/-- `Duration::from_secs` for a constant. -/
def secs (n : Nat) (h : n * 1000000000 < durationLimit := by decide) : Duration := ⟨n * 1000000000, h⟩

/-- `Duration::as_secs`. -/
def asSecs (d : Duration) : Nat := d.ns / 1000000000

/-- `Duration::subsec_micros`. -/
def subsecMicros (d : Duration) : Nat := d.ns % 1000000000 / 1000

/-- `Duration::subsec_millis`. -/
def subsecMillis (d : Duration) : Nat := d.ns % 1000000000 / 1000000

/-- `a < b` (derived `Ord`). -/
def lt' (a b : Duration) : Bool := decide (a.ns < b.ns)

/-- `a <= b`. -/
def le' (a b : Duration) : Bool := decide (a.ns ≤ b.ns)

/-- `cmp::max(a, b)`. -/
def max (a b : Duration) : Duration := if a.ns ≤ b.ns then b else a

/-- `d * k` (`Mul<u32> for Duration`): panics on overflow. -/
def mul {ε : Type} (d : Duration) (k : Nat) : Res ε Duration :=
  if h : d.ns * k < durationLimit then .ok ⟨d.ns * k, h⟩ else .panic

end Duration

/-- `a * b` on `u32`. -/
def mulU32 {ε : Type} (a b : Nat) : Res ε Nat := if a * b < 2 ^ 32 then .ok (a * b) else .panic

/-- `a + b` on `u32`. -/
def addU32 {ε : Type} (a b : Nat) : Res ε Nat := if a + b < 2 ^ 32 then .ok (a + b) else .panic

/-- `a * b` on `u64`. -/
def mulU64 {ε : Type} (a b : Nat) : Res ε Nat := if a * b < 2 ^ 64 then .ok (a * b) else .panic

/-- `x as u32` for a `u64`. -/
def asU32 (x : Nat) : Nat := x % 2 ^ 32

end Bt
