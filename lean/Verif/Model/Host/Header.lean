import Verif.Model.Controller
import Verif.Model.Opcode

/-! # Command headers: host/mod.rs 30-56, host/uart.rs, host/cmd_link.rs, host/event_link.rs -/

namespace Bt

/-- `MAX_HEADER_LENGTH`: host/mod.rs 30. -/
def MAX_HEADER_LENGTH : Nat := 5

/-- `trait HciHeader`: host/mod.rs 42-56. -/
structure HciHeader where
  /-- The implementing type. -/
  H : Type
  HEADER_LENGTH : Nat
  new : Opcode → Nat → H
  copyIntoSlice : {ε : Type} → H → List UInt8 → Res ε (List UInt8)

/-- `uart::CommandHeader` (host/uart.rs 40-43) and `cmd_link::Header` (host/cmd_link.rs 15-18). -/
structure CommandHeader where
  opcode : Opcode
  paramLen : UInt8
  deriving DecidableEq, Repr

/-- `PACKET_TYPE_HCI_COMMAND`: host/uart.rs 7. -/
def PACKET_TYPE_HCI_COMMAND : UInt8 := 0x01

/-- `HciHeader for uart::CommandHeader`: host/uart.rs 73-88. -/
def uartHeader : HciHeader where
  H := CommandHeader
  HEADER_LENGTH := 4
  new op n := ⟨op, UInt8.ofNat n⟩
  copyIntoSlice h buffer := do
    let buffer ← setByte buffer 0 PACKET_TYPE_HCI_COMMAND
    let buffer ← withRange buffer 1 3 (fun s => writeU16 s h.opcode.val)
    setByte buffer 3 h.paramLen

/-- `HciHeader for cmd_link::Header`: host/cmd_link.rs 20-34. -/
def cmdLinkHeader : HciHeader where
  H := CommandHeader
  HEADER_LENGTH := 3
  new op n := ⟨op, UInt8.ofNat n⟩
  copyIntoSlice h buffer := do
    let buffer ← writeU16 buffer h.opcode.val
    setByte buffer 2 h.paramLen

/-- `HciHeader for event_link::NoCommands`: host/event_link.rs 63-71. -/
def noCommandsHeader : HciHeader where
  H := Unit
  HEADER_LENGTH := 3
  new _ _ := ()
  copyIntoSlice _ buffer := .ok buffer

/-- `write_command`: host/mod.rs 1164-1177. -/
def writeCommand {σ E : Type} (H : HciHeader) (k : Controller σ E) (op : Opcode)
    (params : List UInt8) : Ctl σ (Nb E) Unit := do
  let header ← Ctl.lift
    (H.copyIntoSlice (H.new op params.length) (Arr.zero MAX_HEADER_LENGTH).val)
  let header ← Ctl.lift (slice header 0 H.HEADER_LENGTH)
  k.write header params

end Bt
