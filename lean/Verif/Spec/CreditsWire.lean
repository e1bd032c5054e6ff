import Verif.Spec.Credits
import Verif.Spec.Damage
import Verif.Spec.Streams

/-! # Specification: counting credits over a stream of bytes

The setting of `Spec/Credits.lean`, but the notices do not arrive as whole packets: their bytes arrive over a transport, in
pieces of any size, and the application calls `read` at any time and notes what it reports. -/

namespace Spec

open Bt

/-- The bytes of notices on the transport. -/
def noticeBytes (lead : List UInt8) (ms : List Notice) : List UInt8 := transmitted lead (ms.map Notice.bytes)

/-- The notices of which not all bytes are among the first `n`. -/
def unread (lead : List UInt8) : List Notice → Nat → List Notice
  | [], _ => []
  | m :: ms, n => if (lead ++ m.bytes).length ≤ n then unread lead ms (n - (lead ++ m.bytes).length) else m :: ms

/-- The packets in the buffers and the connections of the controller, all that it has told so far, the state of the
transport, and the account of the application. -/
structure Wired (σ : Type) where
  buffer : UInt16 → Nat := fun _ => 0
  isOpen : UInt16 → Bool := fun _ => false
  told : List Notice := []
  port : σ
  account : Credits := {}

/-- The same without bytes: a notice is on its way until all its bytes have been handed out. -/
def Wired.traffic {σ : Type} (lead : List UInt8) (taken : σ → Nat) (s : Wired σ) : Traffic :=
  ⟨s.buffer, s.isOpen, unread lead s.told (taken s.port), s.account⟩

/-- What can happen. `acts`: anything but reading; what the controller tells is put behind what it has told before. `arrives`:
some of the bytes that have been told arrive. `calls`: the application calls `read`, during which bytes may arrive as well, and
notes the outcome, if there is one. -/
inductive Wired.Step {σ ε α : Type} (c : Cfg) (V : Vendor) (N : Nat) (fresh : Prop) (lead : List UInt8)
    (stream : σ → List UInt8) (taken : σ → Nat) (read : Ctl σ ε α) (outcome : Res ε α → Option (Res V.EvErr V.Ev)) :
    Wired σ → Wired σ → Prop where
  | acts {s : Wired σ} (t : Traffic) (new : List Notice) : Traffic.Step c V N fresh (s.traffic lead taken) t →
      t.way = (s.traffic lead taken).way ++ new → (∀ m ∈ new, Framed m.bytes) →
      Step c V N fresh lead stream taken read outcome s ⟨t.buffer, t.isOpen, s.told ++ new, s.port, t.account⟩
  | arrives {s : Wired σ} (port : σ) : stream s.port <+: stream port → taken port = taken s.port →
      stream port <+: noticeBytes lead s.told →
      Step c V N fresh lead stream taken read outcome s { s with port := port }
  | calls {s : Wired σ} (r : Res ε α) (port : σ) : read s.port = (r, port) →
      stream port <+: noticeBytes lead s.told →
      Step c V N fresh lead stream taken read outcome s { s with
        port := port
        account := match outcome r with
          | some o => s.account.note o
          | none => s.account }

/-- The states that can be reached from the beginning, when no byte has arrived yet. -/
inductive Wired.Reached {σ ε α : Type} (c : Cfg) (V : Vendor) (N : Nat) (fresh : Prop) (lead : List UInt8)
    (stream : σ → List UInt8) (taken : σ → Nat) (read : Ctl σ ε α) (outcome : Res ε α → Option (Res V.EvErr V.Ev)) :
    Wired σ → Prop where
  | start (port : σ) : stream port = [] → taken port = 0 →
      Reached c V N fresh lead stream taken read outcome { port := port }
  | step {s t : Wired σ} : Reached c V N fresh lead stream taken read outcome s →
      Wired.Step c V N fresh lead stream taken read outcome s t →
      Reached c V N fresh lead stream taken read outcome t

end Spec
