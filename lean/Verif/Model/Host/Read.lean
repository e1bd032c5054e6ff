import Verif.Model.Host.Header
import Verif.Model.Event.Event

/-! # Reading packets: host/uart.rs 90-135 and host/event_link.rs 73-103 -/

namespace Bt

/-- `uart::Error<E, VE>`: host/uart.rs 15-24. -/
inductive UartError (E VE : Type) where
  | badPacketType (b : UInt8)
  | ble (e : EvError VE)
  | comm (e : E)
  deriving DecidableEq, Repr

/-- `event_link::Error<E, VError>`: host/event_link.rs 15-21. -/
inductive EventLinkError (E VE : Type) where
  | ble (e : EvError VE)
  | comm (e : E)
  deriving DecidableEq, Repr

/-- `uart::Packet<Vendor>`: host/uart.rs 27-37. -/
inductive UartPacket (V : Vendor) where
  | event (e : V.Ev)

namespace Uart

/-- `PACKET_TYPE_HCI_EVENT`: host/uart.rs 10. -/
def PACKET_TYPE_HCI_EVENT : UInt8 := 0x04

/-- `rewrap_error`: host/uart.rs 90-95. -/
def rewrapError {E VE : Type} : Nb E → Nb (UartError E VE)
  | .wouldBlock => .wouldBlock
  | .other e => .other (.comm e)

/-- `MAX_EVENT_LENGTH`: host/uart.rs 104. -/
def MAX_EVENT_LENGTH : Nat := 255

/-- `PACKET_HEADER_LENGTH`: host/uart.rs 105. -/
def PACKET_HEADER_LENGTH : Nat := 1

/-- `EVENT_PACKET_HEADER_LENGTH`: host/uart.rs 106. -/
def EVENT_PACKET_HEADER_LENGTH : Nat := 3

/-- `PARAM_LEN_BYTE`: host/uart.rs 107. -/
def PARAM_LEN_BYTE : Nat := 2

section
variable {σ E : Type} (c : Cfg) (V : Vendor) (k : Controller σ E)

/-- `read_event`: host/uart.rs 97-120. -/
def readEvent : Ctl σ (Nb (UartError E V.VErr)) V.Ev := do
  let paramLen ← Ctl.mapErr rewrapError (k.peek PARAM_LEN_BYTE)
  let n := EVENT_PACKET_HEADER_LENGTH + paramLen.toNat
  let buf := (Arr.zero (MAX_EVENT_LENGTH + EVENT_PACKET_HEADER_LENGTH)).val
  let _ ← Ctl.lift (slice buf 0 n)
  let got ← Ctl.mapErr rewrapError (k.readInto n)
  let buf ← Ctl.lift (copyRange buf 0 n got.val)
  let packet ← Ctl.lift (slice buf PACKET_HEADER_LENGTH n)
  Ctl.lift ((Event.new c V packet).mapErr (fun e => .other (.ble e)))

/-- `uart::Hci::read`: host/uart.rs 126-134. -/
def read : Ctl σ (Nb (UartError E V.VErr)) (UartPacket V) := do
  let x ← Ctl.mapErr rewrapError (k.peek 0)
  if x = PACKET_TYPE_HCI_EVENT then do
    let e ← readEvent c V k
    pure (.event e)
  else Ctl.lift (.err (.other (.badPacketType x)))

end

end Uart

namespace EventLink

/-- `rewrap_error`: host/event_link.rs 73-78. -/
def rewrapError {E VE : Type} : Nb E → Nb (EventLinkError E VE)
  | .wouldBlock => .wouldBlock
  | .other e => .other (.comm e)

/-- `MAX_EVENT_LENGTH`: host/event_link.rs 88. -/
def MAX_EVENT_LENGTH : Nat := 255

/-- `EVENT_HEADER_LENGTH`: host/event_link.rs 89. -/
def EVENT_HEADER_LENGTH : Nat := 2

/-- `PARAM_LEN_BYTE`: host/event_link.rs 90. -/
def PARAM_LEN_BYTE : Nat := 1

/-- `event_link::Hci::read`: host/event_link.rs 84-102. -/
def read {σ E : Type} (c : Cfg) (V : Vendor) (k : Controller σ E) :
    Ctl σ (Nb (EventLinkError E V.VErr)) V.Ev := do
  let paramLen ← Ctl.mapErr rewrapError (k.peek PARAM_LEN_BYTE)
  let n := EVENT_HEADER_LENGTH + paramLen.toNat
  let buf := (Arr.zero (MAX_EVENT_LENGTH + EVENT_HEADER_LENGTH)).val
  let _ ← Ctl.lift (slice buf 0 n)
  let got ← Ctl.mapErr rewrapError (k.readInto n)
  let buf ← Ctl.lift (copyRange buf 0 n got.val)
  let packet ← Ctl.lift (slice buf 0 n)
  Ctl.lift ((Event.new c V packet).mapErr (fun e => .other (.ble e)))

end EventLink

end Bt
