import Verif.Spec.Events
import Verif.Spec.CommandStream
import Verif.Model.Host.Read

/-! # Specification of the receiving side: what a controller promises, what reading must deliver -/

namespace Spec

open Bt

/-! ## Controllers

A controller is described by two ghost variables: `stream s`, all the bytes it has received so far, and
`taken s`, how many of them it has handed out. -/

/-- The bytes received and not yet handed out. -/
def pending {σ : Type} (stream : σ → List UInt8) (taken : σ → Nat) (s : σ) : List UInt8 :=
  (stream s).drop (taken s)

/-- What `Controller::peek` and `Controller::read_into` promise (lib.rs 131-314): bytes are handed out in
the order of their arrival, `peek` and a failed `read_into` consume nothing, `read_into` consumes the
number of bytes requested. Any call may fail, and more bytes may arrive during any call. -/
structure Delivers {σ E : Type} (k : Controller σ E) (stream : σ → List UInt8) (taken : σ → Nat) : Prop where
  peek : ∀ n s r s', k.peek n s = (r, s') →
    r ≠ .panic ∧ stream s <+: stream s' ∧ taken s' = taken s ∧
    ∀ b, r = .ok b → (stream s')[taken s + n]? = some b
  readInto : ∀ n s r s', k.readInto n s = (r, s') →
    r ≠ .panic ∧ stream s <+: stream s' ∧ (∀ e, r = .err e → taken s' = taken s) ∧
    ∀ got, r = .ok got → taken s' = taken s + n ∧ ((stream s').drop (taken s)).take n = got.val

/-- A call that asks for bytes that have arrived succeeds. -/
structure Prompt {σ E : Type} (k : Controller σ E) (stream : σ → List UInt8) (taken : σ → Nat) : Prop where
  peek : ∀ n s, n < (pending stream taken s).length → ∃ b, (k.peek n s).1 = .ok b
  readInto : ∀ n s, n ≤ (pending stream taken s).length → ∃ got, (k.readInto n s).1 = .ok got

/-- A call that asks for bytes that have not arrived returns `WouldBlock`, and nothing arrives during a
call. -/
structure Quiet {σ E : Type} (k : Controller σ E) (stream : σ → List UInt8) (taken : σ → Nat) : Prop where
  peek : ∀ n s, stream (k.peek n s).2 = stream s ∧
    ((pending stream taken s).length ≤ n → (k.peek n s).1 = .err .wouldBlock)
  readInto : ∀ n s, stream (k.readInto n s).2 = stream s ∧
    ((pending stream taken s).length < n → (k.readInto n s).1 = .err .wouldBlock)

/-- Any history: calls of the method `m`, with results `rs`, and between them anything that receives bytes
but does not hand any out. -/
inductive History {σ ε α : Type} (stream : σ → List UInt8) (taken : σ → Nat) (m : Ctl σ ε α) :
    σ → List (Res ε α) → σ → Prop where
  | nil (s) : History stream taken m s [] s
  | wait {s s₁ rs s'} : stream s <+: stream s₁ → taken s₁ = taken s →
      History stream taken m s₁ rs s' → History stream taken m s rs s'
  | call {s r s₁ rs s'} : m s = (r, s₁) → History stream taken m s₁ rs s' →
      History stream taken m s (r :: rs) s'

/-- Call a method `n` times, whatever it returns. -/
def callTimes {σ ε α : Type} (m : Ctl σ ε α) : Nat → σ → List (Res ε α) × σ
  | 0, s => ([], s)
  | n + 1, s => ((m s).1 :: (callTimes m n (m s).2).1, (callTimes m n (m s).2).2)

/-! ## Packets -/

/-- An HCI event packet: event code, number of parameter bytes, parameters. -/
def Framed (p : List UInt8) : Prop := ∃ code ps, ps.length ≤ 255 ∧ p = frame code ps

/-- The bytes of a sequence of event packets on a UART: each one after the indicator `0x04`. -/
def uartBytes (ps : List (List UInt8)) : List UInt8 := (ps.map (0x04 :: ·)).flatten

/-! ## Results -/

/-- How `uart::Hci::read` reports the outcome of decoding a packet. -/
def uartResult {E : Type} {V : Vendor} : Res V.EvErr V.Ev → Res (Nb (UartError E V.VErr)) (UartPacket V)
  | .ok e => .ok (.event e)
  | .err e => .err (.other (.ble e))
  | .panic => .panic

/-- How `event_link::Hci::read` reports the outcome of decoding a packet. -/
def linkResult {E : Type} {V : Vendor} : Res V.EvErr V.Ev → Res (Nb (EventLinkError E V.VErr)) V.Ev
  | .ok e => .ok e
  | .err e => .err (.other (.ble e))
  | .panic => .panic

/-- The outcome of decoding that a result of `uart::Hci::read` reports; none if it reports that there was
no packet. -/
def uartOutcome {E : Type} {V : Vendor} : Res (Nb (UartError E V.VErr)) (UartPacket V) → Option (Res V.EvErr V.Ev)
  | .ok (.event e) => some (.ok e)
  | .err (.other (.ble e)) => some (.err e)
  | .panic => some .panic
  | .err .wouldBlock | .err (.other (.comm _)) | .err (.other (.badPacketType _)) => none

/-- The same for `event_link::Hci::read`. -/
def linkOutcome {E : Type} {V : Vendor} : Res (Nb (EventLinkError E V.VErr)) V.Ev → Option (Res V.EvErr V.Ev)
  | .ok e => some (.ok e)
  | .err (.other (.ble e)) => some (.err e)
  | .panic => some .panic
  | .err .wouldBlock | .err (.other (.comm _)) => none

/-! ## Observing the controller -/

/-- How a call of a controller ended. -/
inductive CallEnd (E : Type) where
  | done
  | failed (e : Nb E)
  | panicked

/-- How a result ended. -/
def endOf {E α : Type} : Res (Nb E) α → CallEnd E
  | .ok _ => .done
  | .err e => .failed e
  | .panic => .panicked

/-- The controller `k` with a log of how each of its calls ended. -/
def observing {σ E : Type} (k : Controller σ E) : Controller (σ × List (CallEnd E)) E where
  write h p := fun s => ((k.write h p s.1).1, ((k.write h p s.1).2, s.2 ++ [endOf (k.write h p s.1).1]))
  readInto n := fun s => ((k.readInto n s.1).1, ((k.readInto n s.1).2, s.2 ++ [endOf (k.readInto n s.1).1]))
  peek n := fun s => ((k.peek n s.1).1, ((k.peek n s.1).2, s.2 ++ [endOf (k.peek n s.1).1]))

end Spec
