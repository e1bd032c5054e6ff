import Verif.Model.DebugEvent

/-! # Specification: what can be read off a log -/

namespace Spec

open Bt

/-- What can follow the text of a value: nothing, or a delimiter of the value that it is a part of. -/
def Follows (r : List Char) : Prop :=
  r = [] ∨ ∃ t, r = ',' :: t ∨ r = ')' :: t ∨ r = ']' :: t ∨ r = '}' :: t ∨ r = ' ' :: '}' :: t

/-- A way of printing values from which the value can be read off, alone and within a longer text. -/
def Legible {α : Type} (f : α → List Char) : Prop :=
  ∀ a b r s, Follows r → Follows s → f a ++ r = f b ++ s → a = b

/-- A vendor whose texts can be read off. -/
structure LegibleVendor {V : Vendor} (D : VendorDebug V) : Prop where
  status : Legible D.status
  ret : Legible D.ret
  event : Legible D.event
  err : Legible D.err

/-- Events that are equal, or would be if the bit fields of supported commands had only 39 octets. -/
def SameShown {VS VR VEv : Type} (d e : Event VS VR VEv) : Prop :=
  d = e ∨ ∃ n s f g, d = .commandComplete ⟨n, .readLocalSupportedCommands ⟨s, f⟩⟩ ∧
    e = .commandComplete ⟨n, .readLocalSupportedCommands ⟨s, g⟩⟩ ∧ f.arr.val.take 39 = g.arr.val.take 39

/-- Results of reading over `uart` that are equal, or would be but for `SameShown`. -/
def SameUartRead {E : Type} {V : Vendor} (r r' : Res (Nb (UartError E V.VErr)) (UartPacket V)) : Prop :=
  r = r' ∨ ∃ d e, r = .ok (.event d) ∧ r' = .ok (.event e) ∧ SameShown d e

/-- Results of reading over `event_link` that are equal, or would be but for `SameShown`. -/
def SameLinkRead {E : Type} {V : Vendor} (r r' : Res (Nb (EventLinkError E V.VErr)) V.Ev) : Prop :=
  r = r' ∨ ∃ d e, r = .ok d ∧ r' = .ok e ∧ SameShown d e

end Spec
