import Verif.Model.Opcode
import Verif.Model.Status
import Verif.Model.BitflagArray
import Verif.Model.Types.ConnectionInterval

/-! # Errors, vendor traits and length checks of `/repo/src/event/mod.rs` -/

namespace Bt

/-- `event::Error<V>`: event/mod.rs 164-250. -/
inductive EvError (VE : Type) where
  | unknownEvent (code : UInt8)
  | badLength (actual expected : Nat)
  | badStatus (b : UInt8)
  | badLinkType (b : UInt8)
  | badEncryptionEnabledValue (b : UInt8)
  | badReason (b : UInt8)
  | badEncryptionType (b : UInt8)
  | unknownOpcode (o : Opcode)
  | badCommandFlag
  | invalidChannelMap (bits : Arr 5)
  | invalidLeStates (bits : UInt64)
  | badLeConnectionRole (b : UInt8)
  | badLeAddressType (b : UInt8)
  | badConnectionInterval (e : ConnectionIntervalError)
  | badLeCentralClockAccuracy (b : UInt8)
  | leAdvertisementReportIncomplete
  | badLeAdvertisementType (b : UInt8)
  | badRemoteUsedFeatureFlag (bits : UInt64)
  | badPhy (b : UInt8)
  | vendor (e : VE)
  deriving DecidableEq, Repr

/-- The vendor extension points: `Vendor` (lib.rs 318-324), `VendorEvent` (event/mod.rs 124-146) and
`VendorReturnParameters` (event/mod.rs 149-160) as one record of arbitrary functions.
`statusTryFrom b = .err w` is `Err(BadStatusError::BadValue(w))`. Vendor code may fail or panic. -/
structure Vendor where
  VErr : Type
  VStatus : Type
  VRet : Type
  VEvent : Type
  statusTryFrom : UInt8 → Res UInt8 VStatus
  statusInto : VStatus → UInt8
  eventNew : List UInt8 → Res (EvError VErr) VEvent
  retNew : List UInt8 → Res (EvError VErr) VRet

section
variable {VE : Type}

/-- `require_len!(bytes, n)`: event/mod.rs 12-18. -/
def requireLen (bytes : List UInt8) (n : Nat) : Res (EvError VE) Unit :=
  if bytes.length ≠ n then .err (.badLength bytes.length n) else .ok ()

/-- `require_len_at_least!(bytes, n)`: event/mod.rs 23-29. -/
def requireLenAtLeast (bytes : List UInt8) (n : Nat) : Res (EvError VE) Unit :=
  if bytes.length < n then .err (.badLength bytes.length n) else .ok ()

end

/-- `b.try_into().map_err(rewrap_bad_status)`: event/mod.rs 254-257 with lib.rs 491-607. -/
def tryStatus (c : Cfg) (V : Vendor) (b : UInt8) : Res (EvError V.VErr) (Status V.VStatus) :=
  (Status.tryFrom c V.statusTryFrom b).mapErr .badStatus

/-- `b.try_into().map_err(rewrap_bad_reason)`: event/mod.rs 259-262 with lib.rs 491-607. -/
def tryReason (c : Cfg) (V : Vendor) (b : UInt8) : Res (EvError V.VErr) (Status V.VStatus) :=
  (Status.tryFrom c V.statusTryFrom b).mapErr .badReason

/-- `LittleEndian::read_u16(&bs[a..])`. -/
def readU16From {ε : Type} (bs : List UInt8) (a : Nat) : Res ε UInt16 := do
  readU16 (← sliceFrom bs a)

/-- `LittleEndian::read_u64(&bs[a..])`. -/
def readU64From {ε : Type} (bs : List UInt8) (a : Nat) : Res ε UInt64 := do
  readU64 (← sliceFrom bs a)

end Bt
