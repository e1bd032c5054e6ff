import Verif.Spec.Masks
import Verif.Spec.Settings

/-! # Specification: which events a controller sends, and which the application asked for

Set Event Mask and LE Set Event Mask (Bluetooth specification, Vol 2, Part E, 7.3.1 and 7.8.1): bit `n - 1` of
the event mask allows the event with code `n`, bit `n - 1` of the LE event mask the LE event with subevent code
`n`. -/

namespace Spec

open Bt

/-- The default event mask (7.3.1). -/
def defaultEventMask : Nat := 0x00001FFFFFFFFFFF

/-- The default LE event mask (7.8.1). -/
def defaultLeEventMask : Nat := 0x1F

/-- The controller sends the event: Command Complete, Command Status, Number Of Completed Packets and vendor
events always, others if the masks allow it. -/
def Told.Passes (t : Told) (code : UInt8) (ps : List UInt8) : Prop :=
  code ∈ [0x0E, 0x0F, 0x13, 0xFF] ∨
  (t.eventMask.getD defaultEventMask).testBit (code.toNat - 1) = true ∧
    (code = 0x3E → (t.leEventMask.getD defaultLeEventMask).testBit (byteAt ps 0 - 1) = true)

/-- The mask contains a flag with this name that the crate offers. -/
def NamesFlag (c : Cfg) (flags : List FlagDecl) (nm : String) (mask : UInt64) : Prop :=
  ∃ d ∈ flags, d.gate.on c = true ∧ d.name = nm ∧ mask &&& d.mask ≠ 0

/-- The names in the default event mask, of events that the crate supports. -/
def defaultEvents : List String :=
  ["CONNECTION_COMPLETE", "DISCONNECTION_COMPLETE", "ENCRYPTION_CHANGE",
    "READ_REMOTE_VERSION_INFORMATION_COMPLETE", "HARDWARE_ERROR", "DATA_BUFFER_OVERFLOW"]

/-- The same for the LE event mask. -/
def defaultLeEvents : List String :=
  ["CONNECTION_COMPLETE", "ADVERTISING_REPORT", "CONNECTION_UPDATE_COMPLETE", "READ_REMOTE_FEATURES_COMPLETE",
    "LONG_TERM_KEY_REQUEST"]

/-- A mask that was set contains the flag, or the mask was not set and the default does. -/
def InMask (c : Cfg) (flags : List FlagDecl) (default : List String) (nm : String) :
    Option UInt64 → Prop
  | some m => NamesFlag c flags nm m
  | none => nm ∈ default

/-- The application asked for the event. -/
def Asked.Wants {V : Vendor} (c : Cfg) (a : Asked) (e : V.Ev) : Prop :=
  (∀ nm, eventFlagName e = some nm → InMask c eventFlags defaultEvents nm a.eventMask) ∧
    ∀ nm, leEventFlagName e = some nm → InMask c leEventFlags defaultLeEvents nm a.leEventMask

end Spec
