import Verif.Spec.Negotiated
import Verif.Spec.Controllers

/-! # Specification: asking again for the connection parameters that were reported -/

namespace Spec

open Bt

variable {σ E : Type} (c : Cfg) (V : Vendor)

/-- The connection parameters of an LE Connection Complete or LE Connection Update Complete event. -/
inductive Reported : FixedConnectionInterval → Prop
  | complete {p e} : Event.new c V p = .ok (.leConnectionComplete e) → Reported e.connInterval
  | update {p e} : Event.new c V p = .ok (.leConnectionUpdateComplete e) → Reported e.connInterval

/-- One round: the host takes the parameters `i` that were reported, builds a connection interval whose bounds are
both the interval of `i`, with the same latency and timeout, and sends LE Connection Update; the controller chooses
parameters in the range that it was sent; and the report of them is decoded as `j`. The transport is `k`, in any
state. -/
def Round (l : Link) (k : Controller σ E) (i j : FixedConnectionInterval) : Prop :=
  ∃ (s : σ) (p : ConnectionUpdateParameters) (ps : List UInt8) (a la t h : UInt16) (st : UInt8)
    (e : LeConnectionUpdateComplete V.VStatus),
    (((ConnectionIntervalBuilder.new.withRange i.interval i.interval).withLatency
      i.connLatency).withSupervisionTimeout i.supervisionTimeout).build = .ok p.connInterval ∧
    BuiltLength p.expectedConnectionLength ∧
    (Hci.leConnectionUpdate (linkHeader l) (recording k) p (s, [])).2.2 = [.write (headerBytes l 0x2013 14) ps] ∧
    Chosen ps 2 a la t ∧
    Event.new c V (frame 0x3E (0x03 :: st :: le16 h ++ le16 a ++ le16 la ++ le16 t)) =
      .ok (.leConnectionUpdateComplete e) ∧
    e.connInterval = j

/-- `n` rounds, each with the parameters reported by the one before. -/
inductive Rounds (l : Link) (k : Controller σ E) : Nat → FixedConnectionInterval → FixedConnectionInterval → Prop
  | none {i} : Rounds l k 0 i i
  | more {n i j m} : Rounds l k n i j → Round c V l k j m → Rounds l k (n + 1) i m

end Spec
