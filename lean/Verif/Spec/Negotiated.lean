import Verif.Spec.Acceptable

/-! # Specification: connection parameters asked for, chosen and reported -/

namespace Spec

open Bt

/-- The values a conforming controller may choose when asked for the connection parameters at byte `i` of
`ps`: an interval between the bounds given, and the latency and supervision timeout given. -/
def Chosen (ps : List UInt8) (i : Nat) (interval latency timeout : UInt16) : Prop :=
  u16At ps i ≤ interval.toNat ∧ interval.toNat ≤ u16At ps (i + 2) ∧ latency.toNat = u16At ps (i + 4) ∧
    timeout.toNat = u16At ps (i + 6)

/-- The parameters reported are those asked for: the interval is in the range, the latency is the same, and
the timeout is the same but for the unit of 10 ms. -/
def AsAsked (asked : ConnectionInterval) (got : FixedConnectionInterval) : Prop :=
  asked.intervalMin.ns ≤ got.interval.ns ∧ got.interval.ns ≤ asked.intervalMax.ns ∧
  got.connLatency = asked.connLatency ∧
  got.supervisionTimeout.ns ≤ asked.supervisionTimeout.ns ∧
  asked.supervisionTimeout.ns < got.supervisionTimeout.ns + 10 * ms

/-- The same, but the interval may be too short by less than 2 ms. -/
def NearlyAsAsked (asked : ConnectionInterval) (got : FixedConnectionInterval) : Prop :=
  asked.intervalMin.ns < got.interval.ns + 2 * ms ∧ got.interval.ns ≤ asked.intervalMax.ns ∧
  got.connLatency = asked.connLatency ∧
  got.supervisionTimeout.ns ≤ asked.supervisionTimeout.ns ∧
  asked.supervisionTimeout.ns < got.supervisionTimeout.ns + 10 * ms

end Spec
