import Verif.Spec.Credits

/-! # Specification: endless traffic

The setting of `Spec/Credits.lean`, in an execution that never ends. -/

namespace Spec

open Bt

/-- An endless execution, from a state that can be reached. From time to time nothing may happen. -/
structure Traffic.Endless (c : Cfg) (V : Vendor) (N : Nat) (fresh : Prop) (s : Nat → Traffic) : Prop where
  start : Traffic.Reached c V N fresh (s 0)
  step : ∀ i, Traffic.Step c V N fresh (s i) (s (i + 1)) ∨ s (i + 1) = s i

/-- The application reads the first notice on its way. -/
def Traffic.ReadNow (c : Cfg) (V : Vendor) (s t : Traffic) : Prop :=
  ∃ m rest, s.way = m :: rest ∧
    t = { s with way := rest, account := s.account.note (Event.new c V m.bytes) }

/-- While a notice is on its way, the application reads some time. -/
def Traffic.KeepsReading (c : Cfg) (V : Vendor) (s : Nat → Traffic) : Prop :=
  ∀ i, (s i).way ≠ [] → ∃ j, i ≤ j ∧ Traffic.ReadNow c V (s j) (s (j + 1))

/-- While packets of a connection are in the buffers, the controller some time frees a buffer of this connection. -/
def Traffic.KeepsFreeing (s : Nat → Traffic) : Prop :=
  ∀ i h, 0 < (s i).buffer h → ∃ j, i ≤ j ∧ (s (j + 1)).buffer h < (s j).buffer h

/-- Nothing that gives credits of connection `h` back: no packet of `h` is completed, and `h` does not end, unless for a reason
that the crate does not know. -/
def Traffic.NoHelp (c : Cfg) (V : Vendor) (h : UInt16) : Notice → Prop
  | .opened _ _ => True
  | .completed xs => xs.length ≤ 63 ∧ amount xs h = 0
  | .closed g reason => g ≠ h ∨ ∀ r, ¬ StatusByte c V reason r
  | .other packet => OtherKind packet

end Spec
