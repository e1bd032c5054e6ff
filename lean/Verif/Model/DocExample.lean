import Verif.Model.Controller

/-! # The reading code shown in the documentation of `Controller::peek`: lib.rs 298-311

The example is compiled as a documentation test, but only against a controller whose `peek` always returns 0, so
that its body is never run. Here it is a method on any controller, returning its buffer. -/

namespace Bt.DocExample

/-- `PACKET_TYPE_HCI_EVENT` of the example: lib.rs 298. -/
def PACKET_TYPE_HCI_EVENT : UInt8 := 4

/-- `MAX_EVENT_LENGTH` of the example: lib.rs 300. -/
def MAX_EVENT_LENGTH : Nat := 255

/-- `HEADER_LENGTH` of the example: lib.rs 301. -/
def HEADER_LENGTH : Nat := 2

/-- The body of the example: lib.rs 302-310. -/
def read {σ E : Type} (k : Controller σ E) : Ctl σ (Nb E) (List UInt8) := do
  let buffer := (Arr.zero (MAX_EVENT_LENGTH + HEADER_LENGTH)).val
  let packetType ← k.peek 0
  if packetType = PACKET_TYPE_HCI_EVENT then do
    let paramLen ← k.peek 3
    let n := HEADER_LENGTH + paramLen.toNat
    let _ ← Ctl.lift (slice buffer 0 n)
    let got ← k.readInto n
    Ctl.lift (copyRange buffer 0 n got.val)
  else pure buffer

end Bt.DocExample
