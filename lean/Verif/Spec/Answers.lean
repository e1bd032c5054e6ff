import Verif.Spec.Sessions
import Verif.Spec.Replies
import Verif.Spec.Events

/-! # Commands and the events that answer them -/

namespace Spec

open Bt

/-- `Answer o packet`: the packet is how a controller answers the command with opcode `o`: a Command Complete
or a Command Status with that opcode. -/
inductive Answer (o : UInt16) : List UInt8 → Prop where
  | complete {n ps} : ps.length ≤ 252 → Answer o (frame 0x0E (n :: le16 o ++ ps))
  | status {st n} : Answer o (frame 0x0F (st :: n :: le16 o))

/-- The event tells the host that this command was answered. -/
def TellsAnswer {V : Vendor} {VS : Type} (cmd : Command VS) (e : V.Ev) : Prop :=
  (∃ n r, e = .commandComplete ⟨n, r⟩ ∧ commandAnswered r = some (commandSent cmd)) ∨
    ∃ s n, e = .commandStatus ⟨s, n, ⟨cmdOpcode cmd⟩⟩

/-- The commands of a session that returned Ok. -/
def Act.succeeded {VS E ρ : Type} : List (Act VS E ρ) → List (Command VS) :=
  List.filterMap fun
    | .command cmd (.ok ()) => some cmd
    | _ => none

end Spec
