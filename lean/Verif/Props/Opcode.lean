import Verif.Model.Opcode
import Verif.Spec.Opcode

/-! # C49: opcodes are faithful pairs of group and command fields -/

namespace Bt

theorem Opcode.toNat_new (ogf ocf : UInt16) :
    (Opcode.new ogf ocf).val.toNat = (ogf.toNat % 64) * 1024 + ocf.toNat % 1024 := by
  have h1 : (ogf <<< 10).toNat = (ogf.toNat % 64) <<< 10 := by
    rw [UInt16.toNat_shiftLeft]
    simp only [UInt16.reduceToNat, Nat.reduceMod, Nat.shiftLeft_eq]
    omega
  have h2 : (ocf &&& 0x03ff).toNat = ocf.toNat % 1024 := by
    rw [UInt16.toNat_and]
    exact Nat.and_two_pow_sub_one_eq_mod ocf.toNat 10
  have h3 : ocf.toNat % 1024 < 2 ^ 10 := Nat.mod_lt _ (by decide)
  rw [Opcode.new, UInt16.toNat_or, h1, h2, ← Nat.shiftLeft_add_eq_or_of_lt h3, Nat.shiftLeft_eq]

theorem Opcode.toNat_ogf (o : Opcode) : o.ogf.toNat = o.val.toNat / 1024 := by
  rw [Opcode.ogf, UInt16.toNat_shiftRight]
  simp [Nat.shiftRight_eq_div_pow]

theorem Opcode.toNat_ocf (o : Opcode) : o.ocf.toNat = o.val.toNat % 1024 := by
  rw [Opcode.ocf, UInt16.toNat_and]
  exact Nat.and_two_pow_sub_one_eq_mod o.val.toNat 10

/-- **C49.** `Opcode::new` has exactly the group field `ogf` modulo 64 and the command field `ocf` modulo
1024, for all 2^32 pairs. -/
theorem C49_fields (ogf ocf : UInt16) :
    (Opcode.new ogf ocf).ogf.toNat = ogf.toNat % 64 ∧
    (Opcode.new ogf ocf).ocf.toNat = ocf.toNat % 1024 := by
  rw [Opcode.toNat_ogf, Opcode.toNat_ocf, Opcode.toNat_new]
  omega

example : (Opcode.new 0x3F 0x07).val = 0xFC07 ∧ (Opcode.new 0x41 0x407).val = 0x0407 := by decide

/-- **C49.** Every one of the 2^16 opcodes is the combination of its fields, and the wire value is
`OGF * 1024 + OCF`. -/
theorem C49_combine (o : Opcode) :
    Opcode.new o.ogf o.ocf = o ∧ o.val.toNat = o.ogf.toNat * 1024 + o.ocf.toNat := by
  have ho := o.val.toNat_lt
  have h1 := Opcode.toNat_ogf o
  have h2 := Opcode.toNat_ocf o
  refine ⟨?_, by omega⟩
  have h : (Opcode.new o.ogf o.ocf).val = o.val := by
    apply UInt16.toNat.inj
    rw [Opcode.toNat_new, h1, h2]
    omega
  cases o
  exact congrArg Opcode.mk h

example : (⟨0x200C⟩ : Opcode).ogf = 0x08 ∧ (⟨0x200C⟩ : Opcode).ocf = 0x0C ∧ Opcode.new 0x08 0x0C = ⟨0x200C⟩ := by
  decide

/-- **C49.** For in-range fields `new` is injective. -/
theorem C49_injective (g c g' c' : UInt16) (hg : g < 64) (hc : c < 1024) (hg' : g' < 64)
    (hc' : c' < 1024) (h : Opcode.new g c = Opcode.new g' c') : g = g' ∧ c = c' := by
  have h' : (Opcode.new g c).val.toNat = (Opcode.new g' c').val.toNat := by rw [h]
  rw [Opcode.toNat_new, Opcode.toNat_new] at h'
  simp only [UInt16.lt_iff_toNat_lt, UInt16.reduceToNat] at *
  constructor <;> apply UInt16.toNat.inj <;> omega

example : (0x08 : UInt16) < 64 ∧ (0x1F : UInt16) < 1024 := by decide

/-- **C49.** The crate's table holds exactly the group and command fields assigned by the Bluetooth
specification, each in range, and no two commands share an opcode. -/
theorem C49_table :
    opcode.all.map (fun o => (o.ogf.toNat, o.ocf.toNat)) = Spec.commandFields ∧
    opcode.all.map (fun o => o.val.toNat) = Spec.commandFields.map (fun f => f.1 * 1024 + f.2) ∧
    (∀ f ∈ Spec.commandFields, f.1 < 64 ∧ f.2 < 1024) ∧
    opcode.all.Nodup := by
  decide +kernel

example : (0x08, 0x0C) ∈ Spec.commandFields ∧ opcode.all.length = 40 := by decide +kernel

end Bt
