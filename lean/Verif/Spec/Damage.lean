import Verif.Spec.Streams

/-! # Specification: packets of which bytes have been changed on the way -/

namespace Spec

open Bt

/-- The bytes of packets, each one after the bytes `lead`: `[0x04]` on a UART, nothing on an event link. -/
def transmitted (lead : List UInt8) (packets : List (List UInt8)) : List UInt8 := (packets.map (lead ++ ·)).flatten

/-- Where the packet `n` begins, with the bytes before it. -/
def startOf (lead : List UInt8) (packets : List (List UInt8)) (n : Nat) : Nat :=
  (transmitted lead (packets.take n)).length

/-- Byte `j` of the packet `n` arrives as `b`: byte 0 is the event code, byte 1 the length, then the parameters follow. -/
def changed (lead : List UInt8) (packets : List (List UInt8)) (n j : Nat) (b : UInt8) : List UInt8 :=
  (transmitted lead packets).set (startOf lead packets n + lead.length + j) b

/-- The first byte of the packet `n`, with what is before it, arrives as `b`: on a UART, the packet indicator. -/
def changedLead (lead : List UInt8) (packets : List (List UInt8)) (n : Nat) (b : UInt8) : List UInt8 :=
  (transmitted lead packets).set (startOf lead packets n) b

end Spec
