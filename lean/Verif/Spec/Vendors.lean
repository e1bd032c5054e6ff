import Verif.Model.Event.Event

/-! # Vendors: what it means for two of them to agree

Only the types and the vendor record of the model are used, none of its functions. The functions here
replace the vendor's own values inside a status, a reply, an event or an error, and leave everything else
alone. -/

namespace Spec

open Bt

/-- Replace a vendor's status. -/
def mapStatus {S S' : Type} (f : S → S') : Status S → Status S'
  | .success => .success
  | .unknownCommand => .unknownCommand
  | .unknownConnectionId => .unknownConnectionId
  | .hardwareFailure => .hardwareFailure
  | .pageTimeout => .pageTimeout
  | .authFailure => .authFailure
  | .pinOrKeyMissing => .pinOrKeyMissing
  | .outOfMemory => .outOfMemory
  | .connectionTimeout => .connectionTimeout
  | .connectionLimitExceeeded => .connectionLimitExceeeded
  | .syncConnectionLimitExceeded => .syncConnectionLimitExceeded
  | .connectionAlreadyExists => .connectionAlreadyExists
  | .commandDisallowed => .commandDisallowed
  | .limitedResources => .limitedResources
  | .connectionRejectedSecurity => .connectionRejectedSecurity
  | .unacceptableBdAddr => .unacceptableBdAddr
  | .acceptTimeoutExceeded => .acceptTimeoutExceeded
  | .unsupportedFeature => .unsupportedFeature
  | .invalidParameters => .invalidParameters
  | .remoteTerminationByUser => .remoteTerminationByUser
  | .remoteTerminationLowResources => .remoteTerminationLowResources
  | .remoteTerminationPowerOff => .remoteTerminationPowerOff
  | .connectionTerminatedByHost => .connectionTerminatedByHost
  | .repeatedAttempts => .repeatedAttempts
  | .pairingNotAllowed => .pairingNotAllowed
  | .unknownLmpPdu => .unknownLmpPdu
  | .unsupportedRemoteFeature => .unsupportedRemoteFeature
  | .scoOffsetRejected => .scoOffsetRejected
  | .scoIntervalRejected => .scoIntervalRejected
  | .scoAirModeRejected => .scoAirModeRejected
  | .invalidLmpParameters => .invalidLmpParameters
  | .unspecifiedError => .unspecifiedError
  | .unsupportedLmpParameterValue => .unsupportedLmpParameterValue
  | .roleChangeNotAllowed => .roleChangeNotAllowed
  | .lmpResponseTimeout => .lmpResponseTimeout
  | .lmpTransactionCollision => .lmpTransactionCollision
  | .lmpPduNotAllowed => .lmpPduNotAllowed
  | .encryptionModeNotAcceptable => .encryptionModeNotAcceptable
  | .linkKeyCannotBeChanged => .linkKeyCannotBeChanged
  | .requestedQosNotSupported => .requestedQosNotSupported
  | .instantPassed => .instantPassed
  | .pairingWithUnitKeyNotSupported => .pairingWithUnitKeyNotSupported
  | .differentTransactionCollision => .differentTransactionCollision
  | .reservedforFutureUse => .reservedforFutureUse
  | .qosUnacceptableParameter => .qosUnacceptableParameter
  | .qosRejected => .qosRejected
  | .channelClassificationNotSupported => .channelClassificationNotSupported
  | .insufficientSecurity => .insufficientSecurity
  | .parameterOutOfMandatoryRange => .parameterOutOfMandatoryRange
  | .reservedForFutureUse49 => .reservedForFutureUse49
  | .roleSwitchPending => .roleSwitchPending
  | .reservedForFutureUse51 => .reservedForFutureUse51
  | .reservedSlotViolation => .reservedSlotViolation
  | .roleSwitchFailed => .roleSwitchFailed
  | .extendedInquiryResponseTooLarge => .extendedInquiryResponseTooLarge
  | .secureSimplePairingNotSupportedByHost => .secureSimplePairingNotSupportedByHost
  | .hostBusyPairing => .hostBusyPairing
  | .connectionRejectedNoSuitableChannel => .connectionRejectedNoSuitableChannel
  | .controllerBusy => .controllerBusy
  | .unacceptableConnectionParameters => .unacceptableConnectionParameters
  | .advertisingTimeout => .advertisingTimeout
  | .connectionTerminatedMicFailure => .connectionTerminatedMicFailure
  | .connectionFailedToEstablish => .connectionFailedToEstablish
  | .macConnectionFailed => .macConnectionFailed
  | .coarseClockAdjustmentRejectedDraggingAttempted => .coarseClockAdjustmentRejectedDraggingAttempted
  | .type0SubmapNotDefined => .type0SubmapNotDefined
  | .unknownAdvertisingId => .unknownAdvertisingId
  | .limitReached => .limitReached
  | .operationCancelledByHost => .operationCancelledByHost
  | .vendor v => .vendor (f v)

/-- Replace a vendor's statuses and replies in return parameters. -/
def mapReturn {S S' R R' : Type} (f : S → S') (g : R → R') :
    ReturnParameters S R → ReturnParameters S' R'
  | .spontaneous => .spontaneous
  | .setEventMask s => .setEventMask (mapStatus f s)
  | .reset s => .reset (mapStatus f s)
  | .readTxPowerLevel ⟨s, connHandle, txPowerLevelDbm⟩ =>
    .readTxPowerLevel ⟨mapStatus f s, connHandle, txPowerLevelDbm⟩
  | .readLocalVersionInformation ⟨s, hv, hr, lv, m, ls⟩ =>
    .readLocalVersionInformation ⟨mapStatus f s, hv, hr, lv, m, ls⟩
  | .readLocalSupportedCommands ⟨s, supportedCommands⟩ =>
    .readLocalSupportedCommands ⟨mapStatus f s, supportedCommands⟩
  | .readLocalSupportedFeatures ⟨s, supportedFeatures⟩ =>
    .readLocalSupportedFeatures ⟨mapStatus f s, supportedFeatures⟩
  | .readBdAddr ⟨s, bdAddr⟩ => .readBdAddr ⟨mapStatus f s, bdAddr⟩
  | .readRssi ⟨s, connHandle, rssi⟩ => .readRssi ⟨mapStatus f s, connHandle, rssi⟩
  | .leSetEventMask s => .leSetEventMask (mapStatus f s)
  | .leReadBufferSize ⟨s, dataPacketLength, dataPacketCount⟩ =>
    .leReadBufferSize ⟨mapStatus f s, dataPacketLength, dataPacketCount⟩
  | .leReadLocalSupportedFeatures ⟨s, supportedFeatures⟩ =>
    .leReadLocalSupportedFeatures ⟨mapStatus f s, supportedFeatures⟩
  | .leSetRandomAddress s => .leSetRandomAddress (mapStatus f s)
  | .leSetAdvertisingParameters s => .leSetAdvertisingParameters (mapStatus f s)
  | .leReadAdvertisingChannelTxPower ⟨s, power⟩ =>
    .leReadAdvertisingChannelTxPower ⟨mapStatus f s, power⟩
  | .leSetAdvertisingData s => .leSetAdvertisingData (mapStatus f s)
  | .leSetScanResponseData s => .leSetScanResponseData (mapStatus f s)
  | .leSetAdvertiseEnable s => .leSetAdvertiseEnable (mapStatus f s)
  | .leSetAdvertisingEnable s => .leSetAdvertisingEnable (mapStatus f s)
  | .leSetScanParameters s => .leSetScanParameters (mapStatus f s)
  | .leSetScanEnable s => .leSetScanEnable (mapStatus f s)
  | .leCreateConnectionCancel s => .leCreateConnectionCancel (mapStatus f s)
  | .leReadWhiteListSize s size => .leReadWhiteListSize (mapStatus f s) size
  | .leClearWhiteList s => .leClearWhiteList (mapStatus f s)
  | .leAddDeviceToWhiteList s => .leAddDeviceToWhiteList (mapStatus f s)
  | .leRemoveDeviceFromWhiteList s => .leRemoveDeviceFromWhiteList (mapStatus f s)
  | .leSetHostChannelClassification s => .leSetHostChannelClassification (mapStatus f s)
  | .leReadChannelMap ⟨s, connHandle, channelMap⟩ =>
    .leReadChannelMap ⟨mapStatus f s, connHandle, channelMap⟩
  | .leEncrypt ⟨s, encryptedData⟩ => .leEncrypt ⟨mapStatus f s, encryptedData⟩
  | .leRand ⟨s, randomNumber⟩ => .leRand ⟨mapStatus f s, randomNumber⟩
  | .leLongTermKeyRequestReply ⟨s, connHandle⟩ => .leLongTermKeyRequestReply ⟨mapStatus f s, connHandle⟩
  | .leLongTermKeyRequestNegativeReply ⟨s, connHandle⟩ =>
    .leLongTermKeyRequestNegativeReply ⟨mapStatus f s, connHandle⟩
  | .leReadSupportedStates ⟨s, supportedStates⟩ =>
    .leReadSupportedStates ⟨mapStatus f s, supportedStates⟩
  | .leReceiverTest s => .leReceiverTest (mapStatus f s)
  | .leTransmitterTest s => .leTransmitterTest (mapStatus f s)
  | .leTestEnd ⟨s, numberOfPackets⟩ => .leTestEnd ⟨mapStatus f s, numberOfPackets⟩
  | .vendor r => .vendor (g r)

/-- Replace a vendor's statuses, replies and events in an event. -/
def mapEvent {S S' R R' E E' : Type} (f : S → S') (g : R → R') (k : E → E') :
    Event S R E → Event S' R' E'
  | .connectionComplete ⟨s, connHandle, bdAddr, linkType, encryptionEnabled⟩ =>
    .connectionComplete ⟨mapStatus f s, connHandle, bdAddr, linkType, encryptionEnabled⟩
  | .disconnectionComplete ⟨s, connHandle, r⟩ =>
    .disconnectionComplete ⟨mapStatus f s, connHandle, mapStatus f r⟩
  | .encryptionChange ⟨s, connHandle, encryption⟩ =>
    .encryptionChange ⟨mapStatus f s, connHandle, encryption⟩
  | .readRemoteVersionInformationComplete ⟨s, connHandle, version, mfgrName, subversion⟩ =>
    .readRemoteVersionInformationComplete ⟨mapStatus f s, connHandle, version, mfgrName, subversion⟩
  | .commandComplete ⟨n, r⟩ => .commandComplete ⟨n, mapReturn f g r⟩
  | .commandStatus ⟨s, numHciCommandPackets, opcode⟩ =>
    .commandStatus ⟨mapStatus f s, numHciCommandPackets, opcode⟩
  | .hardwareError e => .hardwareError e
  | .numberOfCompletedPackets e => .numberOfCompletedPackets e
  | .dataBufferOverflow e => .dataBufferOverflow e
  | .encryptionKeyRefreshComplete ⟨s, connHandle⟩ =>
    .encryptionKeyRefreshComplete ⟨mapStatus f s, connHandle⟩
  | .leConnectionComplete ⟨s, connHandle, role, peerBdAddr, connInterval, centralClockAccuracy⟩ =>
    .leConnectionComplete ⟨mapStatus f s, connHandle, role, peerBdAddr, connInterval, centralClockAccuracy⟩
  | .leAdvertisingReport e => .leAdvertisingReport e
  | .leConnectionUpdateComplete ⟨s, connHandle, connInterval⟩ =>
    .leConnectionUpdateComplete ⟨mapStatus f s, connHandle, connInterval⟩
  | .leReadRemoteUsedFeaturesComplete ⟨s, connHandle, features⟩ =>
    .leReadRemoteUsedFeaturesComplete ⟨mapStatus f s, connHandle, features⟩
  | .leLongTermKeyRequest e => .leLongTermKeyRequest e
  | .leDataLengthChangeEvent e => .leDataLengthChangeEvent e
  | .lePhyUpdateComplete ⟨connHandle, s, txPhy, rxPhy⟩ =>
    .lePhyUpdateComplete ⟨connHandle, mapStatus f s, txPhy, rxPhy⟩
  | .vendor e => .vendor (k e)

/-- Replace a vendor's error. -/
def mapError {X X' : Type} (f : X → X') : EvError X → EvError X'
  | .unknownEvent code => .unknownEvent code
  | .badLength actual expected => .badLength actual expected
  | .badStatus b => .badStatus b
  | .badLinkType b => .badLinkType b
  | .badEncryptionEnabledValue b => .badEncryptionEnabledValue b
  | .badReason b => .badReason b
  | .badEncryptionType b => .badEncryptionType b
  | .unknownOpcode o => .unknownOpcode o
  | .badCommandFlag => .badCommandFlag
  | .invalidChannelMap bits => .invalidChannelMap bits
  | .invalidLeStates bits => .invalidLeStates bits
  | .badLeConnectionRole b => .badLeConnectionRole b
  | .badLeAddressType b => .badLeAddressType b
  | .badConnectionInterval e => .badConnectionInterval e
  | .badLeCentralClockAccuracy b => .badLeCentralClockAccuracy b
  | .leAdvertisementReportIncomplete => .leAdvertisementReportIncomplete
  | .badLeAdvertisementType b => .badLeAdvertisementType b
  | .badRemoteUsedFeatureFlag bits => .badRemoteUsedFeatureFlag bits
  | .badPhy b => .badPhy b
  | .vendor e => .vendor (f e)

/-- `V` renamed: the functions of `W` return the same as those of `V`, up to the names of the vendor's own
values. -/
structure Renaming (V W : Vendor) where
  status : V.VStatus → W.VStatus
  ret : V.VRet → W.VRet
  event : V.VEvent → W.VEvent
  error : V.VErr → W.VErr
  status_ok : ∀ b s, V.statusTryFrom b = .ok s → W.statusTryFrom b = .ok (status s)
  status_err : ∀ b w, V.statusTryFrom b = .err w → W.statusTryFrom b = .err w
  status_panic : ∀ b, V.statusTryFrom b = .panic → W.statusTryFrom b = .panic
  ret_ok : ∀ ps r, V.retNew ps = .ok r → W.retNew ps = .ok (ret r)
  ret_err : ∀ ps e, V.retNew ps = .err e → W.retNew ps = .err (mapError error e)
  ret_panic : ∀ ps, V.retNew ps = .panic → W.retNew ps = .panic
  event_ok : ∀ ps e, V.eventNew ps = .ok e → W.eventNew ps = .ok (event e)
  event_err : ∀ ps e, V.eventNew ps = .err e → W.eventNew ps = .err (mapError error e)
  event_panic : ∀ ps, V.eventNew ps = .panic → W.eventNew ps = .panic

/-- The vendor that adds nothing: no statuses, no replies, no events, one error. -/
def noVendor : Vendor where
  VErr := Unit
  VStatus := Empty
  VRet := Empty
  VEvent := Empty
  statusTryFrom b := .err b
  statusInto s := nomatch s
  eventNew _ := .err (.vendor ())
  retNew _ := .err (.vendor ())

/-- An event without anything of a vendor, as an event of `V`. -/
def plainEvent (V : Vendor) (e : noVendor.Ev) : V.Ev := mapEvent Empty.elim Empty.elim Empty.elim e

/-- An error that no vendor has a say in, as an error of `V`; none for a bad status or reason (the vendor
might have accepted it) and for the vendor's own errors. -/
def plainError (V : Vendor) : EvError Unit → Option (EvError V.VErr)
  | .badStatus _ | .badReason _ | .vendor _ => none
  | .unknownEvent code => some (.unknownEvent code)
  | .badLength actual expected => some (.badLength actual expected)
  | .badLinkType b => some (.badLinkType b)
  | .badEncryptionEnabledValue b => some (.badEncryptionEnabledValue b)
  | .badEncryptionType b => some (.badEncryptionType b)
  | .unknownOpcode o => some (.unknownOpcode o)
  | .badCommandFlag => some .badCommandFlag
  | .invalidChannelMap bits => some (.invalidChannelMap bits)
  | .invalidLeStates bits => some (.invalidLeStates bits)
  | .badLeConnectionRole b => some (.badLeConnectionRole b)
  | .badLeAddressType b => some (.badLeAddressType b)
  | .badConnectionInterval e => some (.badConnectionInterval e)
  | .badLeCentralClockAccuracy b => some (.badLeCentralClockAccuracy b)
  | .leAdvertisementReportIncomplete => some .leAdvertisementReportIncomplete
  | .badLeAdvertisementType b => some (.badLeAdvertisementType b)
  | .badRemoteUsedFeatureFlag bits => some (.badRemoteUsedFeatureFlag bits)
  | .badPhy b => some (.badPhy b)

end Spec
