import Verif.Spec.Waiting

/-! # Hosts that send only as many commands as they are allowed to -/

namespace Spec

open Bt

/-- The number of commands that a packet allows: the first parameter of a Command Complete (event code 0x0E: number,
opcode, ...), the second one of a Command Status (0x0F: status, number, opcode). -/
def allowance : List UInt8 → Option UInt8
  | code :: _ :: x :: y :: _ :: rest =>
    if code = 0x0E then some x else if code = 0x0F ∧ rest.length = 1 then some y else none
  | _ => none

/-- What the controller said last about the number of commands it allows. -/
def lastWord (packets : List (List UInt8)) : Option UInt8 := (packets.filterMap allowance).getLast?

/-- The number of commands that an event says are allowed. -/
def allowanceTold {V : Vendor} : V.Ev → Option UInt8
  | .commandComplete e => some e.numHciCommandPackets
  | .commandStatus e => some e.numHciCommandPackets
  | _ => none

/-- What the host was told last about the number of commands allowed. -/
def lastTold {VS E ρ δ : Type} {V : Vendor} (outcome : ρ → Option (Res δ V.Ev)) (past : List (Act VS E ρ)) : Option UInt8 :=
  (((Act.reads past).filterMap outcome).filterMap fun | .ok e => allowanceTold e | _ => none).getLast?

/-- A host that issues no command when it was told last that none is allowed. -/
def Heeds {VS E ρ δ : Type} {V : Vendor} (outcome : ρ → Option (Res δ V.Ev)) (acts : Nat → Act VS E ρ) : Prop :=
  ∀ n cmd r, acts n = .command cmd r → lastTold outcome (firstActs acts n) ≠ some 0

/-- A controller that changes the number of commands it allows only when it answers a command. -/
def AllowsInAnswers {σ : Type} (stream : σ → List UInt8) (taken : σ → Nat) (wire : List (List UInt8) → List UInt8)
    (before : Nat → σ) : Prop :=
  ∀ n packets, (∀ p ∈ packets, Framed p) → wire packets <+: (stream (before n)).drop (taken (before 0)) →
    ∀ p ∈ packets, allowance p ≠ none → answeredOpcode p ≠ none

end Spec
