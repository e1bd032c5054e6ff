import Verif.Spec.Keys

/-! # Specification: what the controllers of a connection tell each other

The reason of a disconnection (LL_TERMINATE_IND), versions (LL_VERSION_IND) and features (LL_FEATURE_REQ and
LL_FEATURE_RSP) are copied from the one controller to the other, byte for byte (Vol 6 Part B 2.4.2; Vol 2 Part E 7.1.6,
7.7.5, 7.7.12, 7.7.65.4, 7.4.1, 7.8.3). Byte strings here too. -/

namespace Spec

open Bt

/-- The reasons that a host may give for a disconnection. -/
inductive Reason where
  | authFailure
  | user
  | lowResources
  | powerOff
  | unsupportedFeature
  | unitKey
  | unacceptableParameters

/-- As a status, of any vendor. -/
def Reason.status {VS : Type} : Reason → Status VS
  | .authFailure => .authFailure
  | .user => .remoteTerminationByUser
  | .lowResources => .remoteTerminationLowResources
  | .powerOff => .remoteTerminationPowerOff
  | .unsupportedFeature => .unsupportedRemoteFeature
  | .unitKey => .pairingWithUnitKeyNotSupported
  | .unacceptableParameters => .unacceptableConnectionParameters

/-- Disconnect, as the controller takes it apart. -/
def AsksDisconnect (l : Link) (bytes handle : List UInt8) (reason : UInt8) : Prop :=
  handle.length = 2 ∧ bytes = indicator l ++ [0x06, 0x04, 3] ++ handle ++ [reason]

/-- Disconnection Complete. -/
def disconnected (handle : List UInt8) (reason : UInt8) : List UInt8 := [0x05, 4, 0] ++ handle ++ [reason]

/-- A request for the version, and for the features, of the other end. -/
def AsksVersion (l : Link) (bytes handle : List UInt8) : Prop :=
  handle.length = 2 ∧ bytes = indicator l ++ [0x1D, 0x04, 2] ++ handle

def AsksFeatures (l : Link) (bytes handle : List UInt8) : Prop :=
  handle.length = 2 ∧ bytes = indicator l ++ [0x16, 0x20, 2] ++ handle

/-- The version of a controller in the answer to its own host: the version and revision of the HCI are its own affair. -/
def ownVersion (hci revision version company subversion : List UInt8) : List UInt8 :=
  [0x0E, 12, 1, 0x01, 0x10, 0] ++ hci ++ revision ++ version ++ company ++ subversion

/-- And as the host of the other end is told it. -/
def peerVersion (handle version company subversion : List UInt8) : List UInt8 :=
  [0x0C, 8, 0] ++ handle ++ version ++ company ++ subversion

/-- The features of a controller in the answer to its own host. -/
def ownFeatures (features : List UInt8) : List UInt8 := [0x0E, 12, 1, 0x03, 0x20, 0] ++ features

/-- And as the host of the other end is told them. -/
def peerFeatures (handle features : List UInt8) : List UInt8 := [0x3E, 12, 0x04, 0] ++ handle ++ features

end Spec
