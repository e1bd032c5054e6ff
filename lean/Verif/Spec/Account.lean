import Verif.Spec.Ledger

/-! # Specification: what the account of a history says

The entries of a `Ledger` after a history of events, told without keeping an account: from the last event of a kind,
or as a sum over events. -/

namespace Spec

open Bt

/-- With this event the connection `h` begins or ends. -/
def StdEvent.BeginsOrEnds (h : Nat) : StdEvent → Prop
  | .connection st h' _ _ _ => st = 0 ∧ h'.toNat = h
  | .disconnection st h' _ => st = 0 ∧ h'.toNat = h
  | .leConnection st h' _ _ _ _ _ _ _ => st = 0 ∧ h'.toNat = h
  | _ => False

/-- The number of data packets of connection `h` that the event reports as sent. -/
def StdEvent.sentFor (h : Nat) : StdEvent → Nat
  | .completedPackets xs => ((xs.filter fun x => x.1.toNat = h).map fun x => x.2.toNat).sum
  | _ => 0

/-- The number of commands that the event allows. -/
def StdEvent.allows : StdEvent → Option Nat
  | .commandComplete n _ => some n.toNat
  | .noCommandComplete n => some n.toNat
  | .commandStatus _ n _ => some n.toNat
  | _ => none

/-- The encryption of connection `h` that the event announces. -/
def StdEvent.encrypts (h : Nat) : StdEvent → Option Bool
  | .encryptionChange st h' e => if st = 0 ∧ h'.toNat = h then some (decide (e ≠ 0)) else none
  | _ => none

/-- The parameters of connection `h` that the event announces. -/
def StdEvent.changes (h : Nat) : StdEvent → Option (Nat × Nat × Nat)
  | .leConnectionUpdate st h' a l t =>
    if st = 0 ∧ h'.toNat = h then some (1250 * us * a.toNat, l.toNat, 10 * ms * t.toNat) else none
  | _ => none

/-- The lengths of data packets of connection `h` that the event announces. -/
def StdEvent.resizes (h : Nat) : StdEvent → Option (Nat × Nat × Nat × Nat)
  | .leDataLength h' a b d e => if h'.toNat = h then some (a.toNat, b.toNat, d.toNat, e.toNat) else none
  | _ => none

/-- The connection with this handle that the event announces, and whether it is encrypted. -/
def StdEvent.opens : StdEvent → Option (Nat × Connection × Bool)
  | .connection st h a lt enc =>
    if st = 0 then some (h.toNat, .classic a.val (decide (lt = 1)), decide (enc ≠ 0)) else none
  | .leConnection st h role pt p a l t _ =>
    if st = 0 then some (h.toNat, .le (decide (role = 0)) p.val (decide (pt = 1)) (1250 * us * a.toNat) l.toNat
      (10 * ms * t.toNat), false) else none
  | _ => none

/-- The last announcement of a list of events, if there is one. -/
def lastOf {α : Type} (f : StdEvent → Option α) (xs : List StdEvent) : Option α := (xs.filterMap f).getLast?

end Spec
