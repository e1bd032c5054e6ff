import Verif.Spec.Events

/-! # What the standard permits in connection events (Vol 2 Part E 7.7.65) -/

namespace Spec

open Bt

/-- Connection interval `a` (units of 1.25 ms), latency `l` and supervision timeout `t` (units of 10 ms) of a
connection, 7.7.65.1: `a` in 0x0006..0x0C80, `l` in 0x0000..0x01F3, `t` in 0x000A..0x0C80, and the timeout is
larger than `(1 + l) * interval * 2`. -/
structure StandardConnection (a l t : Nat) : Prop where
  interval : 0x0006 ≤ a ∧ a ≤ 0x0C80
  latency : l ≤ 0x01F3
  timeout : 0x000A ≤ t ∧ t ≤ 0x0C80
  relation : (1 + l) * (1250 * us * a) * 2 < 10 * ms * t

end Spec
