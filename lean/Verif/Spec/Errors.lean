import Verif.Spec.Events
import Verif.Spec.Commands

/-! # Specification: the errors an application can be given -/

namespace Spec

open Bt

/-- The errors in the parameters of a connection that can be received: an interval is a number of 1.25 ms, a timeout
is a number of 10 ms, both in 16 bits. Only one interval is received, so it cannot be inverted. -/
def IntervalError : ConnectionIntervalError → Prop
  | .incomplete => False
  | .intervalTooShort d => ∃ a, a < 6 ∧ d.ns = 1250 * us * a
  | .intervalTooLong d => ∃ a, 3200 < a ∧ a < 65536 ∧ d.ns = 1250 * us * a
  | .intervalInverted _ _ => False
  | .badConnectionLatency l => 499 < l.toNat
  | .impossibleSupervisionTimeout d => ∃ a l, 6 ≤ a ∧ a ≤ 3200 ∧ l ≤ 499 ∧ 12800 ≤ (1 + l) * a ∧
      d.ns = 2500 * us * ((1 + l) * a)
  | .supervisionTimeoutTooShort t m => (∃ a l, 6 ≤ a ∧ a ≤ 3200 ∧ l ≤ 499 ∧ (1 + l) * a < 12800 ∧
      m.ns = Max.max (2500 * us * ((1 + l) * a)) (100 * ms)) ∧ 10 * ms ∣ t.ns ∧ t.ns ≤ m.ns
  | .supervisionTimeoutTooLong d => ∃ t, 3200 < t ∧ t < 65536 ∧ d.ns = 10 * ms * t

/-- A number of parameter bytes that is reported as wrong, and the number that is reported as right. -/
def WrongLength (actual required : Nat) : Prop :=
  actual ≠ required ∧
    ((actual ≤ 255 ∧ required ∈ [1, 3, 4, 8, 11]) ∨
     (1 ≤ actual ∧ actual ≤ 255 ∧ required ∈ [6, 10, 11, 12, 13, 19]) ∨
     (1 ≤ actual ∧ actual ≤ 255 ∧ ∃ n, n < 256 ∧ required = 1 + 4 * n) ∨
     (actual ≤ 252 ∧ required ∈ [2, 3, 4, 7, 8, 9, 17, 65]))

/-- The errors of the vendor's own functions. -/
def VendorError (V : Vendor) (e : EvError V.VErr) : Prop :=
  (∃ ps : List UInt8, ps.length ≤ 255 ∧ V.eventNew ps = .err e) ∨
    ∃ n o ps, VendorOpcode o ∧ ps.length ≤ 252 ∧ V.retNew (n :: le16 o ++ ps) = .err e

/-- The errors of the crate in packets that are correctly framed. -/
def FramedError (c : Cfg) (V : Vendor) : EvError V.VErr → Prop
  | .unknownEvent b => b ∉ eventCodes ∨ b ∉ subeventCodes
  | .badLength a r => WrongLength a r
  | .badStatus w | .badReason w => ∃ b : UInt8, statusCount c ≤ b.toNat ∧ V.statusTryFrom b = .err w
  | .badLinkType b => 1 < b
  | .badEncryptionEnabledValue b => 1 < b
  | .badEncryptionType b => 2 < b
  | .unknownOpcode o => o.val ≠ 0 ∧ ¬ KnownReply o.val ∧ ¬ VendorOpcode o.val
  | .badCommandFlag => True
  | .invalidChannelMap m => ∃ i j, HasBit m.val i j ∧ ¬ ChannelBit i j
  | .invalidLeStates x => ∃ j, x.toNat.testBit j = true ∧ ¬ LeStateBit j
  | .badLeConnectionRole b => 1 < b
  | .badLeAddressType b => 1 < b
  | .badConnectionInterval e => IntervalError e
  | .badLeCentralClockAccuracy b => 7 < b
  | .leAdvertisementReportIncomplete => True
  | .badLeAdvertisementType b => 4 < b
  | .badRemoteUsedFeatureFlag x => ∃ j, x.toNat.testBit j = true ∧ ¬ LeFeatureBit c j
  | .badPhy b => 2 < b
  | .vendor _ => False

/-- The errors in packets that are not framed: shorter than a header, or not as long as the header says. -/
def FramingError {VE : Type} (e : EvError VE) : Prop :=
  ∃ a r, e = .badLength a r ∧ ((a < 2 ∧ r = 2) ∨ (2 ≤ a ∧ 2 ≤ r ∧ r ≤ 257 ∧ a ≠ r))

/-- The errors that the methods of commands can return. -/
def CommandError {E VS : Type} (c : Cfg) : HostError E VS → Prop
  | .badDisconnectionReason r => r.available c = true ∧ r ∉ [.authFailure, .remoteTerminationByUser, .remoteTerminationLowResources,
      .remoteTerminationPowerOff, .unsupportedRemoteFeature, .pairingWithUnitKeyNotSupported,
      .unacceptableConnectionParameters]
  | .badRandomAddress a => ¬ ValidRandomAddress a
  | .badChannelMap m => m = 0
  | .advertisingDataTooLong n => 31 < n
  | .badConnectionLengthRange _ _ => False
  | .noValidChannel => True
  | .invalidTestChannel ch => 39 < ch.toNat
  | .invalidTestPayloadLength n => 37 < n
  | .comm _ => True

end Spec
