import Verif.Model.Types.ConnectionInterval
import Verif.Model.Types.AdvertisingInterval
import Verif.Model.Types.ScanWindow
import Verif.Model.Types.ExpectedConnectionLength

/-! # Specification of the value types: legal ranges and wire units

All durations are natural numbers of nanoseconds. Only the types of the model are used. -/

namespace Spec

open Bt

/-- One microsecond. -/
def us : Nat := 1000

/-- One millisecond. -/
def ms : Nat := 1000000

/-- One second. -/
def sec : Nat := 1000000000

/-- Twice the longest time between two connection events: the supervision timeout must exceed it. -/
def minTimeout (max latency : Nat) : Nat := (1 + latency) * max * 2

/-- The documented constraints on connection parameters (the timeout is strictly above its minimum). -/
structure LegalConnection (min max latency timeout : Nat) : Prop where
  minBound : 7500 * us ≤ min
  order : min ≤ max
  maxBound : max ≤ 4 * sec
  latencyBound : latency ≤ 499
  feasible : minTimeout max latency < 32 * sec
  timeoutAbove : minTimeout max latency < timeout
  timeoutLow : 100 * ms < timeout
  timeoutHigh : timeout ≤ 32 * sec

/-- The first violated constraint, in the documented order, with the value that violates it. -/
def FirstViolation (min max : Duration) (latency : UInt16) (timeout : Duration) :
    ConnectionIntervalError → Prop
  | .incomplete => False
  | .intervalTooShort d => min.ns < 7500 * us ∧ d = min
  | .intervalTooLong d => 7500 * us ≤ min.ns ∧ 4 * sec < max.ns ∧ d = max
  | .intervalInverted a b =>
    7500 * us ≤ min.ns ∧ max.ns ≤ 4 * sec ∧ max.ns < min.ns ∧ a = min ∧ b = max
  | .badConnectionLatency l =>
    7500 * us ≤ min.ns ∧ max.ns ≤ 4 * sec ∧ min.ns ≤ max.ns ∧ 499 < latency.toNat ∧ l = latency
  | .impossibleSupervisionTimeout d =>
    7500 * us ≤ min.ns ∧ max.ns ≤ 4 * sec ∧ min.ns ≤ max.ns ∧ latency.toNat ≤ 499 ∧
      32 * sec ≤ minTimeout max.ns latency.toNat ∧ d.ns = minTimeout max.ns latency.toNat
  | .supervisionTimeoutTooShort given minimum =>
    7500 * us ≤ min.ns ∧ max.ns ≤ 4 * sec ∧ min.ns ≤ max.ns ∧ latency.toNat ≤ 499 ∧
      minTimeout max.ns latency.toNat < 32 * sec ∧
      minimum.ns = Max.max (minTimeout max.ns latency.toNat) (100 * ms) ∧
      timeout.ns ≤ minimum.ns ∧ given = timeout
  | .supervisionTimeoutTooLong d =>
    7500 * us ≤ min.ns ∧ max.ns ≤ 4 * sec ∧ min.ns ≤ max.ns ∧ latency.toNat ≤ 499 ∧
      minTimeout max.ns latency.toNat < 32 * sec ∧ 32 * sec < timeout.ns ∧ d = timeout

/-- The same constraints on raw wire values (interval in units of 1.25 ms, timeout in units of 10 ms). -/
structure LegalRaw (min max latency timeout : Nat) : Prop where
  minBound : 6 ≤ min
  order : min ≤ max
  maxBound : max ≤ 3200
  latencyBound : latency ≤ 499
  timeoutAbove : (1 + latency) * max < 4 * timeout
  feasible : (1 + latency) * max < 12800
  timeoutLow : 10 < timeout
  timeoutHigh : timeout ≤ 3200

/-- What the serialiser writes for an interval: whole milliseconds, converted to 1.25 ms units. -/
def writtenInterval (ns : Nat) : Nat := 4 * (ns / ms) / 5

/-- Timeout in units of 10 ms. -/
def units10ms (ns : Nat) : Nat := ns / (10 * ms)

/-- Duration in units of 0.625 ms. -/
def units625us (ns : Nat) : Nat := ns / (625 * us)

/-- A call of one of the three setters of the connection interval builder. -/
inductive Setter where
  | range (min max : Duration)
  | latency (l : UInt16)
  | timeout (t : Duration)

/-- The last range given, if any. -/
def lastRange (calls : List Setter) : Option (Duration × Duration) :=
  (calls.filterMap (fun s => match s with | .range a b => some (a, b) | _ => none)).getLast?

/-- The last latency given, if any. -/
def lastLatency (calls : List Setter) : Option UInt16 :=
  (calls.filterMap (fun s => match s with | .latency l => some l | _ => none)).getLast?

/-- The last timeout given, if any. -/
def lastTimeout (calls : List Setter) : Option Duration :=
  (calls.filterMap (fun s => match s with | .timeout t => some t | _ => none)).getLast?

/-- Smallest advertising interval accepted for a type: 20 ms, but 100 ms for scannable undirected
advertising before Bluetooth 5.0. -/
def advFloor (c : Cfg) (t : AdvertisingType) : Nat :=
  if c.v50 = false ∧ t = .scannableUndirected then 100 * ms else 20 * ms

/-- The advertising type codes of the Bluetooth specification (Vol 2, Part E, 7.8.5). -/
def advTypeCode : AdvertisingType → UInt8
  | .connectableUndirected => 0
  | .connectableDirectedHighDutyCycle => 1
  | .scannableUndirected => 2
  | .nonConnectableUndirected => 3
  | .connectableDirectedLowDutyCycle => 4

end Spec
