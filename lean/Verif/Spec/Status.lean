import Verif.Model.Event.Base

/-! # Specification of status codes (Bluetooth spec, Vol 2, Part D)

Only the types of the model are used here, none of its functions. -/

namespace Spec

open Bt

/-- The standard error codes in numeric order: entry `n` is the status with code `n`. -/
def standardStatuses {VS : Type} : List (Status VS) :=
  [.success,
   .unknownCommand,
   .unknownConnectionId,
   .hardwareFailure,
   .pageTimeout,
   .authFailure,
   .pinOrKeyMissing,
   .outOfMemory,
   .connectionTimeout,
   .connectionLimitExceeeded,
   .syncConnectionLimitExceeded,
   .connectionAlreadyExists,
   .commandDisallowed,
   .limitedResources,
   .connectionRejectedSecurity,
   .unacceptableBdAddr,
   .acceptTimeoutExceeded,
   .unsupportedFeature,
   .invalidParameters,
   .remoteTerminationByUser,
   .remoteTerminationLowResources,
   .remoteTerminationPowerOff,
   .connectionTerminatedByHost,
   .repeatedAttempts,
   .pairingNotAllowed,
   .unknownLmpPdu,
   .unsupportedRemoteFeature,
   .scoOffsetRejected,
   .scoIntervalRejected,
   .scoAirModeRejected,
   .invalidLmpParameters,
   .unspecifiedError,
   .unsupportedLmpParameterValue,
   .roleChangeNotAllowed,
   .lmpResponseTimeout,
   .lmpTransactionCollision,
   .lmpPduNotAllowed,
   .encryptionModeNotAcceptable,
   .linkKeyCannotBeChanged,
   .requestedQosNotSupported,
   .instantPassed,
   .pairingWithUnitKeyNotSupported,
   .differentTransactionCollision,
   .reservedforFutureUse,
   .qosUnacceptableParameter,
   .qosRejected,
   .channelClassificationNotSupported,
   .insufficientSecurity,
   .parameterOutOfMandatoryRange,
   .reservedForFutureUse49,
   .roleSwitchPending,
   .reservedForFutureUse51,
   .reservedSlotViolation,
   .roleSwitchFailed,
   .extendedInquiryResponseTooLarge,
   .secureSimplePairingNotSupportedByHost,
   .hostBusyPairing,
   .connectionRejectedNoSuitableChannel,
   .controllerBusy,
   .unacceptableConnectionParameters,
   .advertisingTimeout,
   .connectionTerminatedMicFailure,
   .connectionFailedToEstablish,
   .macConnectionFailed,
   .coarseClockAdjustmentRejectedDraggingAttempted,
   .type0SubmapNotDefined,
   .unknownAdvertisingId,
   .limitReached,
   .operationCancelledByHost]

/-- Number of standard codes known in a configuration: 0x00..0x40, and up to 0x44 with Bluetooth 5.0. -/
def statusCount (c : Cfg) : Nat := if c.v50 then 0x45 else 0x41

/-- Byte `b` stands for status `s`: by the standard table below `statusCount`, by the vendor above. -/
def StatusByte (c : Cfg) (V : Vendor) (b : UInt8) (s : Status V.VStatus) : Prop :=
  if b.toNat < statusCount c then standardStatuses[b.toNat]? = some s
  else ∃ v, V.statusTryFrom b = .ok v ∧ s = .vendor v

end Spec
