import Verif.Spec.Sessions
import Verif.Model.Host.Read

/-! # Specification of controllers that can replace one another

The calls that are ever made on a controller, agreement of two controllers on these calls, and applications that
choose what to do next by what they have been told. -/

namespace Spec

open Bt

/-- The calls made on a controller. Over a UART: a look at the packet type and at the length, packets of 3 to 258
bytes, and commands with a header of four bytes. Over the event and command links: a look at the length, packets of
2 to 257 bytes, and commands with a header of three bytes. A command has at most 32 parameter bytes. -/
def Called : Link → CtlOp → Prop
  | .uart, .peek n => n = 0 ∨ n = 2
  | .cmdLink, .peek n => n = 1
  | .uart, .readInto n => 3 ≤ n ∧ n ≤ 258
  | .cmdLink, .readInto n => 2 ≤ n ∧ n ≤ 257
  | .uart, .write h p => p.length ≤ 32 ∧ ∃ a b, h = [0x01, a, b, UInt8.ofNat p.length]
  | .cmdLink, .write h p => p.length ≤ 32 ∧ ∃ a b, h = [a, b, UInt8.ofNat p.length]

/-- Another type of communication errors. -/
def renamed {X Y : Type} (f : X → Y) : Nb X → Nb Y
  | .wouldBlock => .wouldBlock
  | .other e => .other (f e)

/-- In related states two controllers give the same answer to each of the calls, up to the names of errors, and
the states are related again. -/
structure Interchangeable {σ σ' E E' : Type} (calls : CtlOp → Prop) (R : σ → σ' → Prop) (f : E → E')
    (k : Controller σ E) (k' : Controller σ' E') : Prop where
  write : ∀ h p s s', calls (.write h p) → R s s' →
    (k'.write h p s').1 = (k.write h p s).1.mapErr (renamed f) ∧ R (k.write h p s).2 (k'.write h p s').2
  readInto : ∀ n s s', calls (.readInto n) → R s s' →
    (k'.readInto n s').1 = (k.readInto n s).1.mapErr (renamed f) ∧ R (k.readInto n s).2 (k'.readInto n s').2
  peek : ∀ n s s', calls (.peek n) → R s s' →
    (k'.peek n s').1 = (k.peek n s).1.mapErr (renamed f) ∧ R (k.peek n s).2 (k'.peek n s').2

/-- The errors of `read` over a UART, with other communication errors. -/
def renamedUart {E E' VE : Type} (f : E → E') : UartError E VE → UartError E' VE
  | .badPacketType b => .badPacketType b
  | .ble e => .ble e
  | .comm e => .comm (f e)

/-- The errors of `read` over an event link, with other communication errors. -/
def renamedLink {E E' VE : Type} (f : E → E') : EventLinkError E VE → EventLinkError E' VE
  | .ble e => .ble e
  | .comm e => .comm (f e)

/-- The errors of commands, with other communication errors. -/
def renamedHost {E E' VS : Type} (f : E → E') : HostError E VS → HostError E' VS
  | .badDisconnectionReason s => .badDisconnectionReason s
  | .badRandomAddress a => .badRandomAddress a
  | .badChannelMap bits => .badChannelMap bits
  | .advertisingDataTooLong n => .advertisingDataTooLong n
  | .badConnectionLengthRange min max => .badConnectionLengthRange min max
  | .noValidChannel => .noValidChannel
  | .invalidTestChannel b => .invalidTestChannel b
  | .invalidTestPayloadLength n => .invalidTestPayloadLength n
  | .comm e => .comm (f e)

/-- A call with its result, with other communication errors; `g` renames those of `read`. -/
def renamedAct {VS E E' X X' α : Type} (f : E → E') (g : X → X') :
    Act VS E (Res (Nb X) α) → Act VS E' (Res (Nb X') α)
  | .read r => .read (r.mapErr (renamed g))
  | .command cmd r => .command cmd (r.mapErr (renamed (renamedHost f)))

/-- What an application does next. -/
inductive Move (VS : Type) where
  | read
  | command (cmd : Command VS)
  | rest

/-- `n` rounds of an application: it chooses by the calls it has made and their results, and by the time. Between
its calls the controller may change by itself. -/
def play {σ VS E ε α : Type} (read : Ctl σ ε α) (exec : Command VS → Ctl σ (Nb (HostError E VS)) Unit)
    (app : Nat → List (Act VS E (Res ε α)) → Move VS) (outside : Nat → σ → σ) :
    Nat → σ → List (Act VS E (Res ε α)) × σ
  | 0, s => ([], s)
  | n + 1, s =>
    let (past, s₁) := play read exec app outside n s
    let s₂ := outside n s₁
    match app n past with
    | .read => (past ++ [.read (read s₂).1], (read s₂).2)
    | .command cmd => (past ++ [.command cmd (exec cmd s₂).1], (exec cmd s₂).2)
    | .rest => (past, s₂)

/-- A controller that has any packet of type event and length `l` announced, but never hands one over. -/
def announcing (l : UInt8) : Controller Unit Unit where
  write _ _ := fun s => (.err .wouldBlock, s)
  peek n := fun s => (.ok (if n = 0 then 0x04 else l), s)
  readInto _ := fun s => (.err .wouldBlock, s)

end Spec
