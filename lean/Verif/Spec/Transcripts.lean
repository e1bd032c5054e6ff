import Verif.Model.Host.Read
import Verif.Spec.CommandStream
import Verif.Spec.Events

/-! # Specification of the conversation between `read` and its controller

A transcript lists the calls made on a controller together with their answers. `UartRun` and `LinkRun` say
which transcripts a `read` may have and which result it then returns. The bytes that were read are judged
by `Encodes`, `FirstFault` and `Panics` of `Spec.Events`. -/

namespace Spec

open Bt

/-- A call of a controller with its answer. -/
inductive Answered (E : Type) where
  | write (header payload : List UInt8) (answer : Res (Nb E) Unit)
  | readInto (n : Nat) (answer : Res (Nb E) (List UInt8))
  | peek (n : Nat) (answer : Res (Nb E) UInt8)

/-- The call without the answer. -/
def Answered.call {E : Type} : Answered E → CtlOp
  | .write h p _ => .write h p
  | .readInto n _ => .readInto n
  | .peek n _ => .peek n

/-- The bytes in an answer to `read_into`. -/
def answerBytes {E : Type} {n : Nat} : Res (Nb E) (Arr n) → Res (Nb E) (List UInt8)
  | .ok got => .ok got.val
  | .err e => .err e
  | .panic => .panic

/-- The controller `k` with a transcript of the calls made on it. -/
def transcribing {σ E : Type} (k : Controller σ E) : Controller (σ × List (Answered E)) E where
  write h p := fun s => ((k.write h p s.1).1, ((k.write h p s.1).2, s.2 ++ [.write h p (k.write h p s.1).1]))
  readInto n := fun s =>
    ((k.readInto n s.1).1, ((k.readInto n s.1).2, s.2 ++ [.readInto n (answerBytes (k.readInto n s.1).1)]))
  peek n := fun s => ((k.peek n s.1).1, ((k.peek n s.1).2, s.2 ++ [.peek n (k.peek n s.1).1]))

/-- The controller that gives the answers of a transcript, one after the other. It panics at a call that
is not the next one of the transcript, and on an answer that does not fill the buffer. -/
def replaying {E : Type} : Controller (List (Answered E)) E where
  write h p := fun s =>
    match s with
    | .write h' p' a :: rest => if h' = h ∧ p' = p then (a, rest) else (.panic, s)
    | _ => (.panic, s)
  readInto n := fun s =>
    match s with
    | .readInto m (.ok got) :: rest => if h : m = n ∧ got.length = n then (.ok ⟨got, h.2⟩, rest) else (.panic, s)
    | .readInto m (.err e) :: rest => if m = n then (.err e, rest) else (.panic, s)
    | .readInto m .panic :: rest => if m = n then (.panic, rest) else (.panic, s)
    | _ => (.panic, s)
  peek n := fun s =>
    match s with
    | .peek m a :: rest => if m = n then (a, rest) else (.panic, s)
    | _ => (.panic, s)

/-- The result to which an unsuccessful answer leads. -/
inductive Stops {E X α β : Type} (comm : E → X) : Res (Nb E) α → Res (Nb X) β → Prop where
  | wouldBlock : Stops comm (.err .wouldBlock) (.err .wouldBlock)
  | failed (e : E) : Stops comm (.err (.other e)) (.err (.other (comm e)))
  | panicked : Stops comm .panic .panic

/-- The result to which the bytes of a packet lead. -/
inductive DecodesTo {X β : Type} (c : Cfg) (V : Vendor) (event : V.Ev → β) (ble : EvError V.VErr → X)
    (packet : List UInt8) : Res (Nb X) β → Prop where
  | event {e} : Encodes c V packet e → DecodesTo c V event ble packet (.ok (event e))
  | fault {e} : FirstFault c V packet e → DecodesTo c V event ble packet (.err (.other (ble e)))
  | panics : Panics c V packet → DecodesTo c V event ble packet .panic

/-- The transcripts of `uart::Hci::read`, with the result: the packet type at 0 and the length at 2 are
peeked, then the whole packet is read, of which everything after the packet type is decoded. -/
inductive UartRun {E : Type} (c : Cfg) (V : Vendor) :
    List (Answered E) → Res (Nb (UartError E V.VErr)) (UartPacket V) → Prop where
  | noType {a r} : Stops .comm a r → UartRun c V [.peek 0 a] r
  | badType {b} : b ≠ 0x04 → UartRun c V [.peek 0 (.ok b)] (.err (.other (.badPacketType b)))
  | noLength {a r} : Stops .comm a r → UartRun c V [.peek 0 (.ok 0x04), .peek 2 a] r
  | noPacket {l a r} : Stops .comm a r →
      UartRun c V [.peek 0 (.ok 0x04), .peek 2 (.ok l), .readInto (3 + l.toNat) a] r
  | packet {l got r} : got.length = 3 + l.toNat → DecodesTo c V .event .ble (got.drop 1) r →
      UartRun c V [.peek 0 (.ok 0x04), .peek 2 (.ok l), .readInto (3 + l.toNat) (.ok got)] r

/-- The transcripts of `event_link::Hci::read`, with the result: the length at 1 is peeked, then the whole
packet is read and decoded. -/
inductive LinkRun {E : Type} (c : Cfg) (V : Vendor) :
    List (Answered E) → Res (Nb (EventLinkError E V.VErr)) V.Ev → Prop where
  | noLength {a r} : Stops .comm a r → LinkRun c V [.peek 1 a] r
  | noPacket {l a r} : Stops .comm a r → LinkRun c V [.peek 1 (.ok l), .readInto (2 + l.toNat) a] r
  | packet {l got r} : got.length = 2 + l.toNat → DecodesTo c V id .ble got r →
      LinkRun c V [.peek 1 (.ok l), .readInto (2 + l.toNat) (.ok got)] r

/-- Two transcripts are the same, or they are the same up to a call that was answered differently. -/
def SameUntilAnswer {E : Type} (log log' : List (Answered E)) : Prop :=
  log = log' ∨ ∃ before x y after after', log = before ++ x :: after ∧ log' = before ++ y :: after' ∧
    x.call = y.call ∧ x ≠ y

end Spec
