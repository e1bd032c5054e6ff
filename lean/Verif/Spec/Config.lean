import Verif.Spec.Events
import Verif.Spec.Commands
import Verif.Spec.Constructible

/-! # Specification: what changes when the crate is built for a later version of Bluetooth -/

namespace Spec

open Bt

/-- `c'` has at least the version features of `c`. -/
def Upgrade (c c' : Cfg) : Prop := (c.v42 = true → c'.v42 = true) ∧ (c.v50 = true → c'.v50 = true)

/-- The status codes that Bluetooth 5.0 adds. -/
def newStatuses : List UInt8 := [0x41, 0x42, 0x43, 0x44]

/-- A status or a disconnection reason carried by an event. -/
def CarriesStatus (code : UInt8) (ps : List UInt8) (b : UInt8) : Prop :=
  (∃ i, StatusAt code ps i b) ∨ (code = 0x05 ∧ ps[3]? = some b)

/-- `Upgraded c e e'`: `e'` is the event `e` of configuration `c` as a later version reports it. The reply
to LE Set Advertising Enable has a new name in 5.0, and the local LE feature mask shows more bits. -/
inductive Upgraded {V : Vendor} (c : Cfg) : V.Ev → V.Ev → Prop where
  | same (e) : Upgraded c e e
  | renamed (n s) : Upgraded c (.commandComplete ⟨n, .leSetAdvertiseEnable s⟩)
      (.commandComplete ⟨n, .leSetAdvertisingEnable s⟩)
  | leFeatures (n s) (y y' : UInt64) :
      (∀ j, y.toNat.testBit j = true ↔ y'.toNat.testBit j = true ∧ LeFeatureBit c j) →
      Upgraded c (.commandComplete ⟨n, .leReadLocalSupportedFeatures ⟨s, y⟩⟩)
        (.commandComplete ⟨n, .leReadLocalSupportedFeatures ⟨s, y'⟩⟩)

/-- The method exists in configuration `c` (`#[cfg]` in host/mod.rs). -/
def Command.Exists {VS : Type} (c : Cfg) : Command VS → Prop
  | .leSetAdvertiseEnable _ => c.v50 = false
  | .leSetAdvertisingEnable _ => c.v50 = true
  | .leAddAnonAdvertisingDevicesToWhiteList => c.v50 = true
  | .leRemoveAnonAdvertisingDevicesFromWhiteList => c.v50 = true
  | _ => True

/-- The name of the method in configuration `c'`. -/
def Command.renamed {VS : Type} (c' : Cfg) : Command VS → Command VS
  | .leSetAdvertiseEnable b => if c'.v50 then .leSetAdvertisingEnable b else .leSetAdvertiseEnable b
  | cmd => cmd

end Spec
