import Verif.Lemmas.Bytes
import Verif.Spec.Address
import Verif.Model.Host.Params

/-! # C44, C52: device addresses -/

namespace Bt

open Spec

variable {ε : Type}

theorem copyAddrType_eq (t : BdAddrType) (buf : List UInt8) :
    t.copyIntoSlice (ε := ε) buf = if buf.length = 7 then .ok (addrTypeBytes t) else .panic := by
  unfold BdAddrType.copyIntoSlice
  by_cases h : buf.length = 7
  · rw [if_pos h, beq_iff_eq.mpr h]
    simp only [Res.assert_true, Res.bind_ok]
    match buf, h with
    | [b0, b1, b2, b3, b4, b5, b6], _ =>
      cases t with
      | pub a =>
        obtain ⟨⟨v, hv⟩⟩ := a
        simp only
        rw [setByte_of_lt _ (by simp)]
        simp only [Res.bind_ok]
        rw [copyRange_of_le (by omega) (by simp) (by simp [hv])]
        simp [addrTypeBytes]
      | random a =>
        obtain ⟨⟨v, hv⟩⟩ := a
        simp only
        rw [setByte_of_lt _ (by simp)]
        simp only [Res.bind_ok]
        rw [copyRange_of_le (by omega) (by simp) (by simp [hv])]
        simp [addrTypeBytes]
  · rw [if_neg h, beq_eq_false_iff_ne.mpr h]
    rfl

/-- **C52.** `copy_into_slice` writes the type byte and the six address bytes; it panics exactly when the
slice does not have seven bytes (documented). -/
theorem C52_written (t : BdAddrType) (buf : List UInt8) :
    t.copyIntoSlice (ε := ε) buf =
      if buf.length = 7 then
        .ok (match t with | .pub a => 0 :: a.val.val | .random a => 1 :: a.val.val)
      else .panic := by
  rw [copyAddrType_eq]
  cases t <;> rfl

example : (BdAddrType.random ⟨⟨[1, 2, 3, 4, 5, 6], rfl⟩⟩).copyIntoSlice (ε := Empty) (zeroes 7) =
      .ok [1, 1, 2, 3, 4, 5, 6] ∧
    (BdAddrType.pub ⟨⟨[1, 2, 3, 4, 5, 6], rfl⟩⟩).copyIntoSlice (ε := Empty) (zeroes 6) = .panic := ⟨rfl, rfl⟩

/-- **C52.** `to_bd_addr_type` inverts it, and rejects exactly the type bytes other than 0 and 1. -/
theorem C52_round_trip (t : BdAddrType) (b : UInt8) (a : BdAddr) :
    (toBdAddrType b a = .ok t ↔ t.copyIntoSlice (ε := ε) (zeroes 7) = .ok (b :: a.val.val)) ∧
    (∀ e, toBdAddrType b a = .err e ↔ e = b ∧ b ≠ 0 ∧ b ≠ 1) ∧
    toBdAddrType b a ≠ .panic := by
  rw [copyAddrType_eq, if_pos (by rfl)]
  have h0 : toBdAddrType 0 a = .ok (.pub a) := rfl
  have h1 : toBdAddrType 1 a = .ok (.random a) := rfl
  have h2 : b ≠ 0 → b ≠ 1 → toBdAddrType b a = .err b := by
    intro h0 h1
    unfold toBdAddrType
    split
    · exact absurd rfl h0
    · exact absurd rfl h1
    · rfl
  have ha : ∀ x y : BdAddr, x.val.val = y.val.val ↔ x = y := by
    intro x y
    constructor
    · intro h; cases x; cases y; simp only [BdAddr.mk.injEq]; exact Arr.ext' h
    · rintro rfl; rfl
  by_cases c0 : b = 0
  · subst c0
    rw [h0]
    refine ⟨?_, ?_, by simp⟩
    · cases t <;> simp [addrTypeBytes, ha, eq_comm]
    · simp
  · by_cases c1 : b = 1
    · subst c1
      rw [h1]
      refine ⟨?_, ?_, by simp⟩
      · cases t <;> simp [addrTypeBytes, ha, eq_comm]
      · simp
    · rw [h2 c0 c1]
      refine ⟨?_, ?_, by simp⟩
      · cases t <;> simp [addrTypeBytes, Ne.symm c0, Ne.symm c1]
      · intro e
        simp [c0, c1, eq_comm]

example : toBdAddrType 1 ⟨⟨[1, 2, 3, 4, 5, 6], rfl⟩⟩ = .ok (.random ⟨⟨[1, 2, 3, 4, 5, 6], rfl⟩⟩) := rfl

/-! ## C44 -/

theorem u8_forall {P : UInt8 → Prop} (h : ∀ n < 256, P (UInt8.ofNat n)) (b : UInt8) : P b := by
  have := h b.toNat b.toNat_lt
  rwa [UInt8.ofNat_toNat] at this

theorem popCount_bounds (b : UInt8) :
    popCountOf b ≤ 8 ∧ (popCountOf b = 0 ↔ b.toNat = 0) ∧ (popCountOf b = 8 ↔ b.toNat = 255) := by
  revert b
  apply u8_forall
  decide +kernel

theorem popCount_top (b : UInt8) :
    popCountOf (b &&& 0b00111111) ≤ 6 ∧
    (popCountOf (b &&& 0b00111111) = 0 ↔ b.toNat % 64 = 0) ∧
    (popCountOf (b &&& 0b00111111) = 6 ↔ b.toNat % 64 = 63) := by
  revert b
  apply u8_forall
  decide +kernel

theorem kind_eq (b : UInt8) : ((b &&& 0b11000000) >>> 6).toNat = b.toNat / 64 := by
  revert b
  apply u8_forall
  decide +kernel

/-- **C44.** An address is accepted exactly when it is a valid random address of the Bluetooth specification;
otherwise the error carries that address, and nothing panics. -/
theorem C44_random_address {E VS : Type} (a : BdAddr) :
    validateRandomAddress (E := E) (VS := VS) a =
      if ValidRandomAddress a then .ok () else .err (.badRandomAddress a) := by
  obtain ⟨⟨v, hv⟩⟩ := a
  match v, hv with
  | [b0, b1, b2, b3, b4, b5], hv =>
    have hk := kind_eq b5
    obtain ⟨l0, z0, o0⟩ := popCount_bounds b0
    obtain ⟨l1, z1, o1⟩ := popCount_bounds b1
    obtain ⟨l2, z2, o2⟩ := popCount_bounds b2
    obtain ⟨l3, z3, o3⟩ := popCount_bounds b3
    obtain ⟨l4, z4, o4⟩ := popCount_bounds b4
    obtain ⟨l5, z5, o5⟩ := popCount_top b5
    have t0 := b0.toNat_lt
    have t1 := b1.toNat_lt
    have t2 := b2.toNat_lt
    have t3 := b3.toNat_lt
    have t4 := b4.toNat_lt
    have t5 := b5.toNat_lt
    have hn : addrNumber ⟨⟨[b0, b1, b2, b3, b4, b5], hv⟩⟩ = b0.toNat + 256 * b1.toNat + 65536 * b2.toNat +
        16777216 * b3.toNat + 4294967296 * b4.toNat + 1099511627776 * b5.toNat := by
      simp only [addrNumber, leVal]
      omega
    have e1 : addrNumber ⟨⟨[b0, b1, b2, b3, b4, b5], hv⟩⟩ / 2 ^ 46 = b5.toNat / 64 := by
      rw [hn]; omega
    have e2 : addrNumber ⟨⟨[b0, b1, b2, b3, b4, b5], hv⟩⟩ % 2 ^ 46 =
        b0.toNat + 256 * b1.toNat + 65536 * b2.toNat +
        16777216 * b3.toNat + 4294967296 * b4.toNat + 1099511627776 * (b5.toNat % 64) := by
      rw [hn]; omega
    have e3 : addrNumber ⟨⟨[b0, b1, b2, b3, b4, b5], hv⟩⟩ / 2 ^ 24 % 2 ^ 22 =
        b3.toNat + 256 * b4.toNat + 65536 * (b5.toNat % 64) := by
      rw [hn]; omega
    have hi : idx (ε := HostError E VS) [b0, b1, b2, b3, b4, b5] 5 = .ok b5 := rfl
    have hp : popCountExceptTop2Bits (ε := HostError E VS) [b0, b1, b2, b3, b4, b5] =
        .ok (0 + popCountOf b0 + popCountOf b1 + popCountOf b2 + popCountOf b3 + popCountOf b4 +
          popCountOf (b5 &&& 0b00111111)) := rfl
    have hp3 : popCountExceptTop2Bits (ε := HostError E VS) [b3, b4, b5] =
        .ok (0 + popCountOf b3 + popCountOf b4 + popCountOf (b5 &&& 0b00111111)) := rfl
    have hs0 : sliceFrom (ε := HostError E VS) [b0, b1, b2, b3, b4, b5] 0 =
        .ok [b0, b1, b2, b3, b4, b5] := rfl
    have hs3 : sliceFrom (ε := HostError E VS) [b0, b1, b2, b3, b4, b5] 3 = .ok [b3, b4, b5] := rfl
    unfold validateRandomAddress
    simp only [hi, Res.bind_ok, hs0, hs3, hp, hp3]
    have hkind : ∀ c : UInt8, (b5 &&& 0b11000000) >>> 6 = c ↔ b5.toNat / 64 = c.toNat := by
      intro c
      rw [← hk]
      exact ⟨fun h => by rw [h], fun h => UInt8.toNat.inj h⟩
    have k0 := hkind 0
    have k2 := hkind 0b10
    have k3 := hkind 0b11
    simp only [UInt8.toNat_zero, UInt8.reduceToNat] at k0 k2 k3
    simp only [k0, k2, k3]
    have hV := Iff.rfl (a := ValidRandomAddress ⟨⟨[b0, b1, b2, b3, b4, b5], hv⟩⟩)
    conv at hV => rhs; unfold ValidRandomAddress; rw [e1, e2, e3]
    clear hn e1 e2 e3
    generalize popCountOf (b5 &&& 0b00111111) = p5 at *
    by_cases c1 : b5.toNat / 64 = 0 ∨ b5.toNat / 64 = 3
    · rw [if_pos c1]
      by_cases c2 : 0 + popCountOf b0 + popCountOf b1 + popCountOf b2 + popCountOf b3 + popCountOf b4 + p5 = 0 ∨
          0 + popCountOf b0 + popCountOf b1 + popCountOf b2 + popCountOf b3 + popCountOf b4 + p5 = 46
      · rw [if_pos c2, if_neg (by rw [hV]; omega)]
      · rw [if_neg c2, if_pos (by rw [hV]; omega)]
    · rw [if_neg c1]
      by_cases c3 : b5.toNat / 64 = 2
      · rw [if_pos c3]
        by_cases c2 : 0 + popCountOf b3 + popCountOf b4 + p5 = 0 ∨ 0 + popCountOf b3 + popCountOf b4 + p5 = 22
        · rw [if_pos c2, if_neg (by rw [hV]; omega)]
        · rw [if_neg c2, if_pos (by rw [hV]; omega)]
      · rw [if_neg c3, if_neg (by rw [hV]; omega)]
        rfl

example : ValidRandomAddress ⟨⟨[1, 0, 0, 0, 0, 0xC0], rfl⟩⟩ := by decide +kernel

example : ¬ ValidRandomAddress ⟨⟨[1, 2, 3, 0xFF, 0xFF, 0xBF], rfl⟩⟩ := by decide +kernel

end Bt
