import Verif.Spec.Events
import Verif.Spec.Commands
import Verif.Spec.Replies

/-! # Specification of the procedures that a command starts and an event concludes

A command that is answered with Command Status has only been started (Vol 2 Part E 4.4); its result comes later
with an event of its own. -/

namespace Spec

open Bt

/-- `Concludes opcode parameters packet`: the event packet concludes the procedure that was started by a command
with this opcode and these parameters (Vol 2 Part E 7.1.6, 7.1.23, 7.8.12, 7.8.18, 7.8.21 and 7.8.24). All but LE
Create Connection name the connection by the first two bytes of the parameters, and the event repeats them. -/
inductive Concludes : UInt16 → List UInt8 → List UInt8 → Prop where
  | disconnected {h ps st reason} :
      Concludes (op 0x01 0x06) (le16 h ++ ps) (frame 0x05 (st :: le16 h ++ [reason]))
  | version {h ps st qs} : qs.length = 5 →
      Concludes (op 0x01 0x1D) (le16 h ++ ps) (frame 0x0C (st :: le16 h ++ qs))
  | connected {ps st h qs} : qs.length = 14 →
      Concludes (op 0x08 0x0D) ps (frame 0x3E (0x01 :: st :: le16 h ++ 0x00 :: qs))
  | updated {h ps st qs} : qs.length = 6 →
      Concludes (op 0x08 0x13) (le16 h ++ ps) (frame 0x3E (0x03 :: st :: le16 h ++ qs))
  | features {h ps st qs} : qs.length = 8 →
      Concludes (op 0x08 0x16) (le16 h ++ ps) (frame 0x3E (0x04 :: st :: le16 h ++ qs))
  | encrypted {h ps st on} : Concludes (op 0x08 0x19) (le16 h ++ ps) (frame 0x08 (st :: le16 h ++ [on]))
  | refreshed {h ps st} : Concludes (op 0x08 0x19) (le16 h ++ ps) (frame 0x30 (st :: le16 h))

/-- What an application can tell from an event: it is of the kind that concludes the command, and is about the
connection that was given to the command. -/
inductive TellsConclusion {V : Vendor} {VS : Type} : Command VS → V.Ev → Prop where
  | disconnected {h reason s r} :
      TellsConclusion (.disconnect h reason) (.disconnectionComplete ⟨s, h, r⟩)
  | version {h s v m x} :
      TellsConclusion (.readRemoteVersionInformation h) (.readRemoteVersionInformationComplete ⟨s, h, v, m, x⟩)
  | connected {p s h peer i clock} :
      TellsConclusion (.leCreateConnection p) (.leConnectionComplete ⟨s, h, .central, peer, i, clock⟩)
  | updated {p s h i} : p.connHandle = h →
      TellsConclusion (.leConnectionUpdate p) (.leConnectionUpdateComplete ⟨s, h, i⟩)
  | features {h s x} :
      TellsConclusion (.leReadRemoteUsedFeatures h) (.leReadRemoteUsedFeaturesComplete ⟨s, h, x⟩)
  | encrypted {p s h x} : p.connHandle = h → TellsConclusion (.leStartEncryption p) (.encryptionChange ⟨s, h, x⟩)
  | refreshed {p s h} : p.connHandle = h →
      TellsConclusion (.leStartEncryption p) (.encryptionKeyRefreshComplete ⟨s, h⟩)

end Spec
