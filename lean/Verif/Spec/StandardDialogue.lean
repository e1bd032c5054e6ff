import Verif.Spec.Dialogue
import Verif.Spec.StandardEvents

/-! # Controllers that answer as the standard says -/

namespace Spec

open Bt

/-- The event answers the command with this opcode: a Command Complete with its return parameters, or a Command
Status. -/
inductive StdEvent.Answers (o : UInt16) : StdEvent → Prop where
  | complete {n r} : r.opcode = o → Answers o (.commandComplete n r)
  | status {st n} : Answers o (.commandStatus st n o)

/-- The controller answers every command that arrives, at some time, perhaps after other events, with an event
that the standard allows and whose fields are in range also if it reports a failure. The answer to the `i`-th
command is the event `slot i` of those it sends; all the events it sends are conforming. -/
def AnswersByStandard {σ : Type} (c : Cfg) (stream : σ → List UInt8) (taken : σ → Nat) (sent : σ → List UInt8)
    (carries : List UInt8 → List (UInt16 × List UInt8) → Prop) (wire : List (List UInt8) → List UInt8)
    (slot : Nat → Nat) (answer : Nat → StdEvent) (before : Nat → σ) : Prop :=
  ∀ a new commands, sent (before a) = sent (before 0) ++ new → carries new commands →
    ∀ i o args, commands[i]? = some (o, args) →
    ∃ (b : Nat) (xs : List StdEvent), (∀ x ∈ xs, x.Conforms c) ∧
      wire (xs.map StdEvent.packet) <+: (stream (before b)).drop (taken (before 0)) ∧
      xs[slot i]? = some (answer i) ∧ (answer i).Answers o ∧ (answer i).InRange c

end Spec
