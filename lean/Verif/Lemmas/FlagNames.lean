import Verif.Lemmas.FlagTables
import Verif.Lemmas.Bytes
import Verif.Spec.Masks

/-! # Named flags -/

namespace Bt

open Spec

/-- The configurations, as a list. -/
def cfgs : List Cfg := [⟨false, false⟩, ⟨true, false⟩, ⟨false, true⟩, ⟨true, true⟩]

theorem mem_cfgs (c : Cfg) : c ∈ cfgs := by
  rcases c with ⟨a, b⟩
  cases a <;> cases b <;> simp [cfgs]

theorem pow_two_inj {a b : Nat} (h : 2 ^ a = 2 ^ b) : a = b := (Nat.pow_right_inj (by decide)).mp h

theorem offers_of_check {P : Cfg → Nat → Prop} {N : List String} {t : List FlagDecl}
    (hP : ∀ c k, P c k → k < 64)
    (h1 : ∀ d ∈ t, ∃ k ∈ List.range 64, d.mask.toNat = 2 ^ k ∧ N[k]? = some d.name ∧
      ∀ c ∈ cfgs, d.gate.on c = true → P c k)
    (h2 : ∀ k ∈ List.range 64, ∀ c ∈ cfgs, P c k →
      ∃ d ∈ t, d.mask.toNat = 2 ^ k ∧ d.gate.on c = true ∧ some d.name = N[k]?)
    (c : Cfg) (nm : String) (k : Nat) : Offers c t nm k ↔ N[k]? = some nm ∧ P c k := by
  constructor
  · rintro ⟨d, hd, hg, rfl, hm⟩
    obtain ⟨k', -, hk, hn, hp⟩ := h1 d hd
    rw [hm] at hk
    obtain rfl := pow_two_inj hk
    exact ⟨hn, hp c (mem_cfgs c) hg⟩
  · rintro ⟨hn, hp⟩
    obtain ⟨d, hd, hm, hg, hn'⟩ := h2 k (List.mem_range.mpr (hP c k hp)) c (mem_cfgs c) hp
    rw [hn] at hn'
    exact ⟨d, hd, hg, Option.some.inj hn', hm⟩

theorem testBit_two_pow_iff {m j k : Nat} (h : m = 2 ^ k) : m.testBit j = true ↔ j = k := by
  rw [h, Nat.testBit_two_pow]
  simp [eq_comm]

/-- For arrays the bits are already known to be the declared ones, so only names are left to check. -/
theorem offersAt_of_check {P : Cfg → Nat → Nat → Prop} {name : Nat → Nat → Option String}
    {t : List ArrFlagDecl} (hP : ∀ c i j, Declared c t i j ↔ P c i j)
    (h1 : ∀ d ∈ t, ∃ j ∈ List.range 8, d.mask.toNat = 2 ^ j ∧ name d.octet j = some d.name)
    (c : Cfg) (nm : String) (i j : Nat) : OffersAt c t nm i j ↔ name i j = some nm ∧ P c i j := by
  rw [← hP]
  constructor
  · rintro ⟨d, hd, hg, rfl, rfl, hm⟩
    obtain ⟨j', -, hj, hn⟩ := h1 d hd
    rw [hm] at hj
    obtain rfl := pow_two_inj hj
    exact ⟨hn, d, hd, hg, rfl, (testBit_two_pow_iff hm).mpr rfl⟩
  · rintro ⟨hn, d, hd, hg, rfl, hb⟩
    obtain ⟨j', -, hj, hn'⟩ := h1 d hd
    obtain rfl := (testBit_two_pow_iff hj).mp hb
    rw [hn] at hn'
    exact ⟨d, hd, hg, (Option.some.inj hn').symm, rfl, hj⟩

/-- Bits of a little-endian number. -/
theorem hasBit_le (n v k : Nat) (hk : k < 8 * n) : HasBit (le n v) (k / 8) (k % 8) ↔ v.testBit k = true := by
  have hi : k / 8 < n := by omega
  have hg : (le n v)[k / 8]? = some (UInt8.ofNat (v / 256 ^ (k / 8))) := by
    simp [le, List.getElem?_map, List.getElem?_range hi]
  have hp : (256 : Nat) ^ (k / 8) = 2 ^ (8 * (k / 8)) := by rw [Nat.pow_mul]
  have hb : (UInt8.ofNat (v / 256 ^ (k / 8))).toNat.testBit (k % 8) = v.testBit k := by
    rw [UInt8.toNat_ofNat', hp, Nat.testBit_mod_two_pow, Nat.testBit_div_two_pow]
    have : k % 8 + 8 * (k / 8) = k := by omega
    have h8 : k % 8 < 8 := Nat.mod_lt _ (by decide)
    rw [this]; simp [h8]
  unfold HasBit
  rw [hg]
  constructor
  · rintro ⟨b, h, h'⟩
    obtain rfl := Option.some.inj h
    rw [← hb]; exact h'
  · intro h
    exact ⟨_, rfl, by rw [hb]; exact h⟩

theorem hasBit_le64 (v : UInt64) (k : Nat) (hk : k < 64) :
    HasBit (le64 v) (k / 8) (k % 8) ↔ v.toNat.testBit k = true := hasBit_le 8 v.toNat k (by omega)

theorem u64_and_pow {x m : UInt64} {k : Nat} (h : m.toNat = 2 ^ k) : x &&& m ≠ 0 ↔ x.toNat.testBit k = true := by
  rw [u64_and_ne_zero]
  constructor
  · rintro ⟨j, h1, h2⟩
    rwa [(testBit_two_pow_iff h).mp h2] at h1
  · intro h1
    exact ⟨k, h1, (testBit_two_pow_iff h).mpr rfl⟩

end Bt
