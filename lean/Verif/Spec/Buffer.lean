import Verif.Spec.Forever

/-! # Specification of receive buffers of limited size -/

namespace Spec

open Bt

/-- The controller keeps at most `cap` bytes, so it cannot hand out more at once. -/
def HoldsAtMost {σ E : Type} (k : Controller σ E) (cap : Nat) : Prop :=
  ∀ n s got, (k.readInto n s).1 = .ok got → n ≤ cap

/-- What has been received since the beginning of the execution. -/
def received {σ : Type} (stream : σ → List UInt8) (taken : σ → Nat) (before : Nat → σ) (i : Nat) : List UInt8 :=
  (stream (before i)).drop (taken (before 0))

/-- The other side sends `bytes`, and perhaps more after them, and it is stopped only while `cap` bytes are
waiting in the buffer (hardware flow control): as long as there is room, another byte comes at some time. -/
structure FlowControlled {σ : Type} (stream : σ → List UInt8) (taken : σ → Nat) (before : Nat → σ) (cap : Nat)
    (bytes : List UInt8) : Prop where
  order : ∀ i, received stream taken before i <+: bytes ∨ bytes <+: received stream taken before i
  room : ∀ i, (pending stream taken (before i)).length < cap → ¬ bytes <+: received stream taken before i →
    ∃ j, i ≤ j ∧ (received stream taken before i).length < (received stream taken before j).length

/-- A controller with a receive buffer of `cap` bytes that is always filled as far as the bytes sent allow; its
state is all that is sent, and how many bytes have been handed out. -/
def ring (cap : Nat) : Controller Fifo Unit where
  write h p := fifo.write h p
  peek n := fun s => if n < cap then fifo.peek n s else (.err .wouldBlock, s)
  readInto n := fun s => if n ≤ cap then fifo.readInto n s else (.err .wouldBlock, s)

/-- What the buffered controller has received: what has been handed out and the buffer. -/
def ringStream (cap : Nat) (s : Fifo) : List UInt8 := s.1.take (s.2 + cap)

end Spec
