import Verif.Spec.Answers
import Verif.Spec.Forever
import Verif.Model.Host.Commands

/-! # Sessions that never end, and controllers that answer -/

namespace Spec

open Bt

/-- A session that never ends: the `i`-th act of the host happens in the state `before i`; between two acts
anything may happen that receives bytes but neither hands any out nor sends any. -/
def Dialogue {σ E ε α VS : Type} (stream : σ → List UInt8) (taken : σ → Nat) (sent : σ → List UInt8)
    (read : Ctl σ ε α) (exec : Command VS → Ctl σ (Nb (HostError E VS)) Unit) (allowed : Command VS → Prop)
    (before : Nat → σ) (acts : Nat → Act VS E (Res ε α)) : Prop :=
  ∀ i, ∃ s, (match acts i with
      | .read r => read (before i) = (r, s)
      | .command cmd r => allowed cmd ∧ exec cmd (before i) = (r, s)) ∧
    stream s <+: stream (before (i + 1)) ∧ taken (before (i + 1)) = taken s ∧ sent (before (i + 1)) = sent s

/-- Again and again the host reads and the controller serves `n` calls in a row. -/
def ReadsFairly {σ E VS ρ : Type} (k : Controller σ E) (stream : σ → List UInt8) (taken : σ → Nat) (n : Nat)
    (before : Nat → σ) (acts : Nat → Act VS E ρ) : Prop :=
  ∀ i, ∃ j, i ≤ j ∧ (∃ r, acts j = .read r) ∧ ServesNext k stream taken n (before j)

/-- The first `n` acts. -/
def firstActs {A : Type} (acts : Nat → A) (n : Nat) : List A := (List.range n).map acts

/-- The controller answers every command that arrives, at some time, perhaps after other packets, with
something the host understands: the answer to the `i`-th command sent is the packet `slot i` of those it
sends. `carries new commands` says that the bytes `new` are these commands, `wire` how packets are sent. -/
def AnswersAll {σ : Type} (c : Cfg) (V : Vendor) (stream : σ → List UInt8) (taken : σ → Nat)
    (sent : σ → List UInt8) (carries : List UInt8 → List (UInt16 × List UInt8) → Prop)
    (wire : List (List UInt8) → List UInt8) (slot : Nat → Nat) (before : Nat → σ) : Prop :=
  ∀ a new commands, sent (before a) = sent (before 0) ++ new → carries new commands →
    ∀ i o args, commands[i]? = some (o, args) →
    ∃ b packets answer e, (∀ p ∈ packets, Framed p) ∧
      wire packets <+: (stream (before b)).drop (taken (before 0)) ∧
      packets[slot i]? = some answer ∧ Answer o answer ∧ Event.new c V answer = .ok e

/-- Commands on a UART: a stream that parses into them. -/
def UartCarries (new : List UInt8) (commands : List (UInt16 × List UInt8)) : Prop :=
  parseCommands new = some commands

/-- Commands on a link of their own: opcode, number of parameter bytes, parameters. -/
def LinkCarries (new : List UInt8) (commands : List (UInt16 × List UInt8)) : Prop :=
  (∀ p ∈ commands, p.2.length < 256) ∧
    new = (commands.map fun p => le16 p.1 ++ UInt8.ofNat p.2.length :: p.2).flatten

/-! ## A controller that answers -/

/-- A Command Status for the command with this UART header. -/
def statusFor (header : List UInt8) : List UInt8 := frame 0x0F (0x00 :: 0x01 :: (header.drop 1).take 2)

/-- A controller that answers every command at once with a Command Status. -/
def responder : Controller Modem Unit where
  write h p := fun s => (.ok (), ⟨(s.queue.1 ++ uartBytes [statusFor h], s.queue.2), s.sent ++ (h ++ p)⟩)
  peek := modem.peek
  readInto := modem.readInto

/-- The states of the responder when a host issues the commands of a script, and reads where there is none. -/
def scripted (c : Cfg) (V : Vendor) (vinto : V.VStatus → UInt8) (script : Nat → Option (Command V.VStatus)) :
    Nat → Modem
  | 0 => ⟨([], 0), []⟩
  | i + 1 =>
    match script i with
    | none => (Uart.read c V responder (scripted c V vinto script i)).2
    | some cmd => (cmd.exec uartHeader responder vinto (scripted c V vinto script i)).2

/-- What the host does and what comes of it. -/
def scriptedActs (c : Cfg) (V : Vendor) (vinto : V.VStatus → UInt8) (script : Nat → Option (Command V.VStatus))
    (i : Nat) : Act V.VStatus Unit (Res (Nb (UartError Unit V.VErr)) (UartPacket V)) :=
  match script i with
  | none => .read (Uart.read c V responder (scripted c V vinto script i)).1
  | some cmd => .command cmd (cmd.exec uartHeader responder vinto (scripted c V vinto script i)).1

end Spec
