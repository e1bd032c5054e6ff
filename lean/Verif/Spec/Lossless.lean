import Verif.Spec.Events

/-! # Specification: the events that keep every byte of their packet -/

namespace Spec

open Bt

/-- Replies that keep all their bytes. The others: `Spontaneous` ignores its parameters, status-only
replies and the white list size ignore what follows them, the local feature replies clear reserved bits,
vendor replies are the vendor's business. -/
def LosslessReply {VS VR : Type} : ReturnParameters VS VR → Prop
  | .readTxPowerLevel _ | .readLocalVersionInformation _ | .readLocalSupportedCommands _ | .readBdAddr _
  | .readRssi _ | .leReadBufferSize _ | .leReadAdvertisingChannelTxPower _ | .leReadChannelMap _
  | .leEncrypt _ | .leRand _ | .leLongTermKeyRequestReply _ | .leLongTermKeyRequestNegativeReply _
  | .leReadSupportedStates _ | .leTestEnd _ => True
  | _ => False

/-- Events that keep all their bytes. The others: advertising reports ignore the number of reports, vendor
events are the vendor's business. -/
def Lossless {V : Vendor} : V.Ev → Prop
  | .vendor _ => False
  | .leAdvertisingReport _ => False
  | .commandComplete e => LosslessReply e.returnParams
  | _ => True

/-- The vendor's status codes are one-to-one. -/
def StatusInjective (V : Vendor) : Prop :=
  ∀ a b v, V.statusTryFrom a = .ok v → V.statusTryFrom b = .ok v → a = b

end Spec
