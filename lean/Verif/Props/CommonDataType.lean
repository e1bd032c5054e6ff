import Verif.Props.Advertisement
import Verif.Spec.CommonDataType
import Verif.Spec.Advertisement

/-! # C66: data type numbers against the registry -/

namespace Bt

open Spec

/-- **C66.** Different data types have different numbers. -/
theorem C66_distinct (s t : CommonDataType) (h : s.asU8 = t.asU8) : s = t := by
  revert s t
  intro s t
  cases s <;> cases t <;> first | exact fun _ => rfl | exact fun h => absurd h (by decide)

example : CommonDataType.flags.asU8 ≠ CommonDataType.completeLocalName.asU8 := by decide

/-- **C66, the part that holds.** Every data type but `SecurityManagerTkValue` has a number that is registered
under its name, and under no other number. Missing: `SecurityManagerTkValue`, see `C66_tk_value`. -/
theorem C66_registered_partial (t : CommonDataType) (h : t ≠ .securityManagerTkValue) (code : UInt8) :
    Registered code t.name ↔ code = t.asU8 := by
  constructor
  · rintro ⟨names, hm, hn⟩
    revert names code
    have : ∀ e ∈ commonDataTypes, t.name ∈ e.2 → e.1 = t.asU8 := by
      revert h
      cases t <;> decide +kernel
    exact fun code names hm hn => this (code, names) hm hn
  · rintro rfl
    revert h
    cases t <;> decide +kernel

example : CommonDataType.leRole ≠ .securityManagerTkValue ∧ Registered 0x1c CommonDataType.leRole.name := by
  decide +kernel

/-- **C66, where it fails.** `SecurityManagerTkValue` is registered as 0x10, but the crate numbers it 0x11, which
is registered for something else (the out-of-band flags). -/
theorem C66_tk_value :
    Registered 0x10 CommonDataType.securityManagerTkValue.name ∧
      ¬ Registered CommonDataType.securityManagerTkValue.asU8 CommonDataType.securityManagerTkValue.name ∧
      Registered CommonDataType.securityManagerTkValue.asU8 "SecurityManagerOutOfBandFlags" := by
  decide +kernel

example : CommonDataType.securityManagerTkValue.asU8 = 0x11 := rfl

/-- **C66.** Whatever advertisement the crate writes, its second byte is a number registered under the name of
its kind: the defect does not reach the wire. -/
theorem C66_written {ε : Type} (a : Advertisement) (buf out : List UInt8) (n : Nat)
    (h : a.copyIntoSlice (ε := ε) buf = .ok (out, n)) :
    ∃ code, out[1]? = some code ∧ Registered code
      (match a with
        | .completeLocalName _ => "CompleteLocalName"
        | .serviceData16BitUuid _ _ => "ServiceData16BitUuid"
        | .serviceData32BitUuid _ _ => "ServiceData32BitUuid"
        | .serviceData128BitUuid _ _ => "ServiceData128BitUuid"
        | .manufacturerSpecificData _ _ => "ManufacturerSpecificData") := by
  rw [C37_written] at h
  split at h
  · cases h
    refine ⟨(adContent a).1, rfl, ?_⟩
    cases a <;> (simp only [adContent]; decide +kernel)
  · cases h

example : ∃ out n, (Advertisement.serviceData16BitUuid 0x1234 [9]).copyIntoSlice (ε := Empty)
    [0, 0, 0, 0, 0] = .ok (out, n) ∧ out[1]? = some 0x16 := ⟨_, _, rfl, rfl⟩

end Bt
