import Verif.Basic

/-! # Model of the status codes and addresses of `/repo/src/lib.rs` -/

namespace Bt

/-- `Status<V>`: lib.rs 330-483. The last four standard variants exist only with `version-5-0`
(`Status.available`). -/
inductive Status (VS : Type) where
  | success
  | unknownCommand
  | unknownConnectionId
  | hardwareFailure
  | pageTimeout
  | authFailure
  | pinOrKeyMissing
  | outOfMemory
  | connectionTimeout
  | connectionLimitExceeeded
  | syncConnectionLimitExceeded
  | connectionAlreadyExists
  | commandDisallowed
  | limitedResources
  | connectionRejectedSecurity
  | unacceptableBdAddr
  | acceptTimeoutExceeded
  | unsupportedFeature
  | invalidParameters
  | remoteTerminationByUser
  | remoteTerminationLowResources
  | remoteTerminationPowerOff
  | connectionTerminatedByHost
  | repeatedAttempts
  | pairingNotAllowed
  | unknownLmpPdu
  | unsupportedRemoteFeature
  | scoOffsetRejected
  | scoIntervalRejected
  | scoAirModeRejected
  | invalidLmpParameters
  | unspecifiedError
  | unsupportedLmpParameterValue
  | roleChangeNotAllowed
  | lmpResponseTimeout
  | lmpTransactionCollision
  | lmpPduNotAllowed
  | encryptionModeNotAcceptable
  | linkKeyCannotBeChanged
  | requestedQosNotSupported
  | instantPassed
  | pairingWithUnitKeyNotSupported
  | differentTransactionCollision
  | reservedforFutureUse
  | qosUnacceptableParameter
  | qosRejected
  | channelClassificationNotSupported
  | insufficientSecurity
  | parameterOutOfMandatoryRange
  | reservedForFutureUse49
  | roleSwitchPending
  | reservedForFutureUse51
  | reservedSlotViolation
  | roleSwitchFailed
  | extendedInquiryResponseTooLarge
  | secureSimplePairingNotSupportedByHost
  | hostBusyPairing
  | connectionRejectedNoSuitableChannel
  | controllerBusy
  | unacceptableConnectionParameters
  | advertisingTimeout
  | connectionTerminatedMicFailure
  | connectionFailedToEstablish
  | macConnectionFailed
  | coarseClockAdjustmentRejectedDraggingAttempted
  | type0SubmapNotDefined
  | unknownAdvertisingId
  | limitReached
  | operationCancelledByHost
  | vendor (v : VS)
  deriving DecidableEq, Repr

/-- Does the variant exist in this configuration (`#[cfg]` attributes, lib.rs 461-480)? -/
def Status.available {VS : Type} (c : Cfg) : Status VS → Bool
  | .type0SubmapNotDefined => c.v50
  | .unknownAdvertisingId => c.v50
  | .limitReached => c.v50
  | .operationCancelledByHost => c.v50
  | _ => true

/-- `TryFrom<u8> for Status<V>`: lib.rs 491-607. `vtry` is the vendor's `TryFrom<u8>`. -/
def Status.tryFrom {VS E : Type} (c : Cfg) (vtry : UInt8 → Res E VS) (value : UInt8) : Res E (Status VS) :=
  match value with
  | 0x00 => .ok .success
  | 0x01 => .ok .unknownCommand
  | 0x02 => .ok .unknownConnectionId
  | 0x03 => .ok .hardwareFailure
  | 0x04 => .ok .pageTimeout
  | 0x05 => .ok .authFailure
  | 0x06 => .ok .pinOrKeyMissing
  | 0x07 => .ok .outOfMemory
  | 0x08 => .ok .connectionTimeout
  | 0x09 => .ok .connectionLimitExceeeded
  | 0x0A => .ok .syncConnectionLimitExceeded
  | 0x0B => .ok .connectionAlreadyExists
  | 0x0C => .ok .commandDisallowed
  | 0x0D => .ok .limitedResources
  | 0x0E => .ok .connectionRejectedSecurity
  | 0x0F => .ok .unacceptableBdAddr
  | 0x10 => .ok .acceptTimeoutExceeded
  | 0x11 => .ok .unsupportedFeature
  | 0x12 => .ok .invalidParameters
  | 0x13 => .ok .remoteTerminationByUser
  | 0x14 => .ok .remoteTerminationLowResources
  | 0x15 => .ok .remoteTerminationPowerOff
  | 0x16 => .ok .connectionTerminatedByHost
  | 0x17 => .ok .repeatedAttempts
  | 0x18 => .ok .pairingNotAllowed
  | 0x19 => .ok .unknownLmpPdu
  | 0x1A => .ok .unsupportedRemoteFeature
  | 0x1B => .ok .scoOffsetRejected
  | 0x1C => .ok .scoIntervalRejected
  | 0x1D => .ok .scoAirModeRejected
  | 0x1E => .ok .invalidLmpParameters
  | 0x1F => .ok .unspecifiedError
  | 0x20 => .ok .unsupportedLmpParameterValue
  | 0x21 => .ok .roleChangeNotAllowed
  | 0x22 => .ok .lmpResponseTimeout
  | 0x23 => .ok .lmpTransactionCollision
  | 0x24 => .ok .lmpPduNotAllowed
  | 0x25 => .ok .encryptionModeNotAcceptable
  | 0x26 => .ok .linkKeyCannotBeChanged
  | 0x27 => .ok .requestedQosNotSupported
  | 0x28 => .ok .instantPassed
  | 0x29 => .ok .pairingWithUnitKeyNotSupported
  | 0x2A => .ok .differentTransactionCollision
  | 0x2B => .ok .reservedforFutureUse
  | 0x2C => .ok .qosUnacceptableParameter
  | 0x2D => .ok .qosRejected
  | 0x2E => .ok .channelClassificationNotSupported
  | 0x2F => .ok .insufficientSecurity
  | 0x30 => .ok .parameterOutOfMandatoryRange
  | 0x31 => .ok .reservedForFutureUse49
  | 0x32 => .ok .roleSwitchPending
  | 0x33 => .ok .reservedForFutureUse51
  | 0x34 => .ok .reservedSlotViolation
  | 0x35 => .ok .roleSwitchFailed
  | 0x36 => .ok .extendedInquiryResponseTooLarge
  | 0x37 => .ok .secureSimplePairingNotSupportedByHost
  | 0x38 => .ok .hostBusyPairing
  | 0x39 => .ok .connectionRejectedNoSuitableChannel
  | 0x3A => .ok .controllerBusy
  | 0x3B => .ok .unacceptableConnectionParameters
  | 0x3C => .ok .advertisingTimeout
  | 0x3D => .ok .connectionTerminatedMicFailure
  | 0x3E => .ok .connectionFailedToEstablish
  | 0x3F => .ok .macConnectionFailed
  | 0x40 => .ok .coarseClockAdjustmentRejectedDraggingAttempted
  | 0x41 => if c.v50 then .ok .type0SubmapNotDefined else (vtry value).mapOk .vendor
  | 0x42 => if c.v50 then .ok .unknownAdvertisingId else (vtry value).mapOk .vendor
  | 0x43 => if c.v50 then .ok .limitReached else (vtry value).mapOk .vendor
  | 0x44 => if c.v50 then .ok .operationCancelledByHost else (vtry value).mapOk .vendor
  | _ => (vtry value).mapOk .vendor

/-- `Into<u8> for Status<V>`: lib.rs 609-704. `vinto` is the vendor's `Into<u8>`. The `0xFF` arms of the
source are unreachable. In a configuration without `version-5-0` the four gated variants do not exist. -/
def Status.into {VS : Type} (vinto : VS → UInt8) : Status VS → UInt8
  | .success => 0x00
  | .unknownCommand => 0x01
  | .unknownConnectionId => 0x02
  | .hardwareFailure => 0x03
  | .pageTimeout => 0x04
  | .authFailure => 0x05
  | .pinOrKeyMissing => 0x06
  | .outOfMemory => 0x07
  | .connectionTimeout => 0x08
  | .connectionLimitExceeeded => 0x09
  | .syncConnectionLimitExceeded => 0x0A
  | .connectionAlreadyExists => 0x0B
  | .commandDisallowed => 0x0C
  | .limitedResources => 0x0D
  | .connectionRejectedSecurity => 0x0E
  | .unacceptableBdAddr => 0x0F
  | .acceptTimeoutExceeded => 0x10
  | .unsupportedFeature => 0x11
  | .invalidParameters => 0x12
  | .remoteTerminationByUser => 0x13
  | .remoteTerminationLowResources => 0x14
  | .remoteTerminationPowerOff => 0x15
  | .connectionTerminatedByHost => 0x16
  | .repeatedAttempts => 0x17
  | .pairingNotAllowed => 0x18
  | .unknownLmpPdu => 0x19
  | .unsupportedRemoteFeature => 0x1A
  | .scoOffsetRejected => 0x1B
  | .scoIntervalRejected => 0x1C
  | .scoAirModeRejected => 0x1D
  | .invalidLmpParameters => 0x1E
  | .unspecifiedError => 0x1F
  | .unsupportedLmpParameterValue => 0x20
  | .roleChangeNotAllowed => 0x21
  | .lmpResponseTimeout => 0x22
  | .lmpTransactionCollision => 0x23
  | .lmpPduNotAllowed => 0x24
  | .encryptionModeNotAcceptable => 0x25
  | .linkKeyCannotBeChanged => 0x26
  | .requestedQosNotSupported => 0x27
  | .instantPassed => 0x28
  | .pairingWithUnitKeyNotSupported => 0x29
  | .differentTransactionCollision => 0x2A
  | .reservedforFutureUse => 0x2B
  | .qosUnacceptableParameter => 0x2C
  | .qosRejected => 0x2D
  | .channelClassificationNotSupported => 0x2E
  | .insufficientSecurity => 0x2F
  | .parameterOutOfMandatoryRange => 0x30
  | .reservedForFutureUse49 => 0x31
  | .roleSwitchPending => 0x32
  | .reservedForFutureUse51 => 0x33
  | .reservedSlotViolation => 0x34
  | .roleSwitchFailed => 0x35
  | .extendedInquiryResponseTooLarge => 0x36
  | .secureSimplePairingNotSupportedByHost => 0x37
  | .hostBusyPairing => 0x38
  | .connectionRejectedNoSuitableChannel => 0x39
  | .controllerBusy => 0x3A
  | .unacceptableConnectionParameters => 0x3B
  | .advertisingTimeout => 0x3C
  | .connectionTerminatedMicFailure => 0x3D
  | .connectionFailedToEstablish => 0x3E
  | .macConnectionFailed => 0x3F
  | .coarseClockAdjustmentRejectedDraggingAttempted => 0x40
  | .type0SubmapNotDefined => 0x41
  | .unknownAdvertisingId => 0x42
  | .limitReached => 0x43
  | .operationCancelledByHost => 0x44
  | .vendor v => vinto v

/-- `ConnectionHandle(pub u16)`: lib.rs 706-708. -/
structure ConnectionHandle where
  val : UInt16
  deriving DecidableEq, Repr

/-- `BdAddr(pub [u8; 6])`: lib.rs 710-712. -/
structure BdAddr where
  val : Arr 6
  deriving DecidableEq, Repr

/-- `BdAddrType`: lib.rs 714-722. -/
inductive BdAddrType where
  | pub (a : BdAddr)
  | random (a : BdAddr)
  deriving DecidableEq, Repr

/-- `BdAddrType::copy_into_slice`: lib.rs 727-739. -/
def BdAddrType.copyIntoSlice {ε : Type} (t : BdAddrType) (bytes : List UInt8) : Res ε (List UInt8) := do
  Res.assert (bytes.length == 7)
  match t with
  | .pub addr => do
    let bytes ← setByte bytes 0 0
    copyRange bytes 1 7 addr.val.val
  | .random addr => do
    let bytes ← setByte bytes 0 1
    copyRange bytes 1 7 addr.val.val

/-- `to_bd_addr_type`: lib.rs 753-759. The error is `BdAddrTypeError(byte)`. -/
def toBdAddrType (bdAddrType : UInt8) (addr : BdAddr) : Res UInt8 BdAddrType :=
  match bdAddrType with
  | 0 => .ok (.pub addr)
  | 1 => .ok (.random addr)
  | _ => .err bdAddrType

end Bt
