import Verif.Spec.Dialogue

/-! # Hosts that wait for the answer to a command before they send the next one -/

namespace Spec

open Bt

/-- An opcode of a command; zero is none. -/
def properOpcode (a b : UInt8) : Option UInt16 :=
  if a = 0 ∧ b = 0 then none else some (UInt16.ofNat (leVal [a, b]))

/-- The opcode of the command that a packet answers: that of a Command Complete (event code 0x0E: length, number of
commands allowed, opcode, ...) or of a Command Status (0x0F: length, status, number of commands allowed, opcode). -/
def answeredOpcode : List UInt8 → Option UInt16
  | code :: _ :: _ :: a :: b :: rest =>
    if code = 0x0E then properOpcode a b
    else if code = 0x0F then
      match rest with
      | [d] => properOpcode b d
      | _ => none
    else none
  | _ => none

/-- The opcodes that packets answer, in order. -/
def answersIn (packets : List (List UInt8)) : List UInt16 := packets.filterMap answeredOpcode

/-- The event tells that some command was answered. -/
def IsAnswer {V : Vendor} : V.Ev → Bool
  | .commandComplete e =>
    match e.returnParams with
    | .spontaneous => false
    | _ => true
  | .commandStatus e => e.opcode.val != 0
  | _ => false

/-- The answers among the results of reading. -/
def answersTold {V : Vendor} {δ : Type} (outcomes : List (Res δ V.Ev)) : List V.Ev :=
  outcomes.filterMap fun
    | .ok e => if IsAnswer e then some e else none
    | _ => none

/-- After every command that returned Ok, an event was read that tells that this command was answered. `outcome` is
the event or the error in a result of reading. -/
def Settled {VS E ρ δ : Type} {V : Vendor} (outcome : ρ → Option (Res δ V.Ev)) (past : List (Act VS E ρ)) : Prop :=
  ∀ earlier cmd later, past = earlier ++ .command cmd (.ok ()) :: later →
    ∃ r e, .read r ∈ later ∧ outcome r = some (.ok e) ∧ TellsAnswer cmd e

/-- A host that waits: it issues a command only when all the commands that returned Ok are answered. (A command
that would block, fails or is rejected may be followed by any other.) -/
def OneAtATime {VS E ρ δ : Type} {V : Vendor} (outcome : ρ → Option (Res δ V.Ev)) (acts : Nat → Act VS E ρ) : Prop :=
  ∀ n cmd r, acts n = .command cmd r → Settled outcome (firstActs acts n)

/-- A controller that answers nothing but the commands it has received, and none of them twice: at every time,
there are at most as many answers to an opcode as there were commands with it. -/
def AnswersOnly {σ : Type} (stream : σ → List UInt8) (taken : σ → Nat) (sent : σ → List UInt8)
    (carries : List UInt8 → List (UInt16 × List UInt8) → Prop) (wire : List (List UInt8) → List UInt8)
    (before : Nat → σ) : Prop :=
  ∀ n new commands packets, sent (before n) = sent (before 0) ++ new → carries new commands →
    (∀ p ∈ packets, Framed p) → wire packets <+: (stream (before n)).drop (taken (before 0)) →
    ∀ o, (answersIn packets).count o ≤ (commands.map Prod.fst).count o

/-- A controller that answers each command at some time: for the commands received so far, as many answers arrive,
and the host understands them. -/
def AnswersEach {σ : Type} (c : Cfg) (V : Vendor) (stream : σ → List UInt8) (taken : σ → Nat) (sent : σ → List UInt8)
    (carries : List UInt8 → List (UInt16 × List UInt8) → Prop) (wire : List (List UInt8) → List UInt8)
    (before : Nat → σ) : Prop :=
  ∀ n new commands, sent (before n) = sent (before 0) ++ new → carries new commands →
    ∃ m packets, (∀ p ∈ packets, Framed p) ∧ wire packets <+: (stream (before m)).drop (taken (before 0)) ∧
      commands.length ≤ (answersIn packets).length ∧
      ∀ p ∈ packets, answeredOpcode p ≠ none → ∃ e, Event.new c V p = .ok e

/-- A script: reset, read, reset, read, ... -/
def turns {VS : Type} (i : Nat) : Option (Command VS) := if i % 2 = 0 then some .reset else none

/-- The states of two links over which Reset is sent, an event and the answer arrive and are read, LE Rand is sent,
and its answer arrives and is read. -/
def resetStates : Nat → Fifo × Modem
  | 0 => (([], 0), ⟨([], 0), []⟩)
  | 1 => (([0x10, 0x01, 0x2A, 0x0E, 4, 1, 0x03, 0x0C, 0], 0), ⟨([], 0), [0x03, 0x0C, 0]⟩)
  | 2 => (([0x10, 0x01, 0x2A, 0x0E, 4, 1, 0x03, 0x0C, 0], 3), ⟨([], 0), [0x03, 0x0C, 0]⟩)
  | 3 => (([0x10, 0x01, 0x2A, 0x0E, 4, 1, 0x03, 0x0C, 0], 9), ⟨([], 0), [0x03, 0x0C, 0]⟩)
  | 4 => (([0x10, 0x01, 0x2A, 0x0E, 4, 1, 0x03, 0x0C, 0, 0x0F, 4, 0, 1, 0x18, 0x20], 9),
      ⟨([], 0), [0x03, 0x0C, 0, 0x18, 0x20, 0]⟩)
  | _ => (([0x10, 0x01, 0x2A, 0x0E, 4, 1, 0x03, 0x0C, 0, 0x0F, 4, 0, 1, 0x18, 0x20], 15),
      ⟨([], 0), [0x03, 0x0C, 0, 0x18, 0x20, 0]⟩)

/-- What the host does and what comes of it. -/
def resetActs {V : Vendor} : Nat → Act V.VStatus Unit (Res (Nb (EventLinkError Unit V.VErr)) V.Ev)
  | 0 => .command .reset (.ok ())
  | 1 => .read (.ok (.hardwareError ⟨0x2A⟩))
  | 2 => .read (.ok (.commandComplete ⟨1, .reset .success⟩))
  | 3 => .command .leRand (.ok ())
  | 4 => .read (.ok (.commandStatus ⟨.success, 1, ⟨0x2018⟩⟩))
  | _ => .read (.err .wouldBlock)

end Spec
