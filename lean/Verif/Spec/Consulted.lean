import Verif.Spec.Status
import Verif.Spec.Events

/-! # What the code of a vendor is asked

The three functions of a vendor are replaced by others with the same types, and the places of a packet are
named at which they may differ without anybody noticing: everywhere but at these. -/

namespace Spec

open Bt

/-- A vendor with the same values but other functions. -/
@[reducible] def reprogrammed (V : Vendor) (status : UInt8 → Res UInt8 V.VStatus)
    (event : List UInt8 → Res (EvError V.VErr) V.VEvent) (ret : List UInt8 → Res (EvError V.VErr) V.VRet) : Vendor :=
  { V with statusTryFrom := status, eventNew := event, retNew := ret }

/-- The positions among the parameters of an event that hold a status or a reason. -/
def statusPlaces (code : UInt8) (params : List UInt8) : List Nat :=
  if code ∈ [0x03, 0x08, 0x0C, 0x0F, 0x30] then [0]
  else if code = 0x05 then [0, 3]
  else if code = 0x0E then [3]
  else if code = 0x3E then
    match params with
    | sub :: _ => if sub ∈ [0x01, 0x03, 0x04, 0x0C] then [1] else []
    | [] => []
  else []

/-- The new functions do the same as the vendor's own
* on the parameters of the packet, if it is a complete vendor event,
* on the parameters of the packet, if it is a complete Command Complete event whose opcode has the group 0x3F,
* on the bytes that a complete packet has at the place of a status and that are not in the standard's table. -/
structure SameOn (c : Cfg) (V : Vendor) (status : UInt8 → Res UInt8 V.VStatus)
    (event : List UInt8 → Res (EvError V.VErr) V.VEvent) (ret : List UInt8 → Res (EvError V.VErr) V.VRet)
    (packet : List UInt8) : Prop where
  event : ∀ ps, ps.length ≤ 255 → packet = frame 0xFF ps → event ps = V.eventNew ps
  ret : ∀ n lo hi ps, ps.length ≤ 252 → packet = frame 0x0E (n :: lo :: hi :: ps) → hi.toNat / 4 = 0x3F →
    ret (n :: lo :: hi :: ps) = V.retNew (n :: lo :: hi :: ps)
  status : ∀ code ps, ps.length ≤ 255 → packet = frame code ps → ∀ i ∈ statusPlaces code ps,
    ∀ b, ps[i]? = some b → statusCount c ≤ b.toNat → status b = V.statusTryFrom b

end Spec
