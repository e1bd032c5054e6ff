import Verif.Basic
import Verif.Lemmas.Bytes

/-! # Lemmas on results and on fields of explicit byte strings -/

namespace Bt

open Spec

namespace Res
variable {ε ε' α β : Type}

theorem mapErr_eq_err {x : Res ε α} {f : ε → ε'} {e : ε'} :
    x.mapErr f = .err e ↔ ∃ e', x = .err e' ∧ f e' = e := by
  cases x <;> simp

theorem mapErr_eq_panic {x : Res ε α} {f : ε → ε'} : x.mapErr f = .panic ↔ x = .panic := by
  cases x <;> simp

theorem mapOk_eq_err {x : Res ε α} {f : α → β} {e : ε} : x.mapOk f = .err e ↔ x = .err e := by
  cases x <;> simp

theorem mapOk_eq_panic {x : Res ε α} {f : α → β} : x.mapOk f = .panic ↔ x = .panic := by
  cases x <;> simp

end Res

/-- Every 16-bit number is two bytes. -/
theorem le16_cases (h : UInt16) : ∃ a b, le16 h = [a, b] ∧ UInt16.ofNat (leNat [a, b]) = h := by
  have hl := length_le16 h
  match hm : le16 h, hl with
  | [a, b], _ => exact ⟨a, b, rfl, by rw [← hm, ofNat_leNat_le16]⟩

/-- Every 64-bit number is eight bytes. -/
theorem le64_cases (x : UInt64) : ∃ a b c d e f g h, le64 x = [a, b, c, d, e, f, g, h] ∧
    UInt64.ofNat (leNat [a, b, c, d, e, f, g, h]) = x := by
  have hl := length_le64 x
  match hm : le64 x, hl with
  | [a, b, c, d, e, f, g, h], _ => exact ⟨a, b, c, d, e, f, g, h, rfl, by rw [← hm, ofNat_leNat_le64]⟩

theorem le16_exists (a b : UInt8) : ∃ h, [a, b] = le16 h := ⟨_, (le16_ofNat_leNat [a, b] rfl).symm⟩

theorem le64_exists (a b c d e f g h : UInt8) : ∃ x, [a, b, c, d, e, f, g, h] = le64 x :=
  ⟨_, (le64_ofNat_leNat [a, b, c, d, e, f, g, h] rfl).symm⟩

end Bt
