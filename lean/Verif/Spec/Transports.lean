import Verif.Spec.Interchangeable

/-! # Specification of the relation between the transports -/

namespace Spec

open Bt

/-- A UART in front of the command link `k`: it takes the packet indicator of a command (`0x01`) off and
hands the rest on; it breaks on anything else. -/
def behindUart {σ E : Type} (k : Controller σ E) : Controller σ E where
  write h p := match h with
    | 0x01 :: h => k.write h p
    | _ => fun s => (.panic, s)
  readInto _ := fun s => (.panic, s)
  peek _ := fun s => (.panic, s)

/-- A UART in front of the event and command links `k`, for both directions: as `behindUart` for commands; every
packet that `k` has is shown with the packet type of events (`0x04`) in front. -/
def overUart {σ E : Type} (k : Controller σ E) : Controller σ E where
  write := (behindUart k).write
  peek
    | 0 => fun s => (.ok 0x04, s)
    | n + 1 => k.peek n
  readInto
    | 0 => fun s => (.ok ⟨[], rfl⟩, s)
    | n + 1 => fun s => match k.readInto n s with
      | (.ok got, s') => (.ok ⟨0x04 :: got.val, by rw [List.length_cons, got.len]⟩, s')
      | (.err e, s') => (.err e, s')
      | (.panic, s') => (.panic, s')

/-- A result of reading from an event link as one of reading from a UART. -/
def asUart {E : Type} {V : Vendor} : Res (Nb (EventLinkError E V.VErr)) V.Ev →
    Res (Nb (UartError E V.VErr)) (UartPacket V)
  | .ok e => .ok (.event e)
  | .err .wouldBlock => .err .wouldBlock
  | .err (.other (.ble e)) => .err (.other (.ble e))
  | .err (.other (.comm e)) => .err (.other (.comm e))
  | .panic => .panic

/-- A call on the links with its result as one on the UART. -/
def actAsUart {VS E : Type} {V : Vendor} : Act VS E (Res (Nb (EventLinkError E V.VErr)) V.Ev) →
    Act VS E (Res (Nb (UartError E V.VErr)) (UartPacket V))
  | .read r => .read (asUart r)
  | .command cmd r => .command cmd r

end Spec
