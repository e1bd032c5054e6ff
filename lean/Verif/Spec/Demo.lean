import Verif.Model.Event.Event

/-! # A vendor for the examples -/

namespace Spec

open Bt

/-- A vendor with statuses 0x80..0xFF, whose events and return parameters are any non-empty payload. -/
def demoVendor : Vendor where
  VErr := Unit
  VStatus := UInt8
  VRet := List UInt8
  VEvent := List UInt8
  statusTryFrom b := if 0x80 ≤ b then .ok b else .err b
  statusInto b := b
  eventNew ps := if ps.isEmpty then .err (.vendor ()) else .ok ps
  retNew ps := .ok ps

end Spec
