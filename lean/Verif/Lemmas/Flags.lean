import Verif.Lemmas.Bytes
import Verif.Spec.Flags

/-! # Lemmas on bits and flag sets -/

namespace Bt

open Spec

variable {ε : Type} {n : Nat}

theorem u8_ext {a b : UInt8} (h : ∀ j, a.toNat.testBit j = b.toNat.testBit j) : a = b :=
  UInt8.toNat.inj (Nat.eq_of_testBit_eq h)

theorem u64_ext {a b : UInt64} (h : ∀ j, a.toNat.testBit j = b.toNat.testBit j) : a = b :=
  UInt64.toNat.inj (Nat.eq_of_testBit_eq h)

/-- `x & !y == 0`: inclusion of bit sets. -/
theorem bv_andNot_eq_zero {w : Nat} (a b : BitVec w) :
    a &&& ~~~ b = 0#w ↔ ∀ j, a.getLsbD j = true → b.getLsbD j = true := by
  constructor
  · intro h j hj
    have : (a &&& ~~~ b).getLsbD j = false := by rw [h]; simp
    rw [BitVec.getLsbD_and, BitVec.getLsbD_not, hj] at this
    have hlt : j < w := BitVec.lt_of_getLsbD hj
    simpa [hlt] using this
  · intro h
    apply BitVec.eq_of_getLsbD_eq
    intro j hj
    rw [BitVec.getLsbD_and, BitVec.getLsbD_not]
    have := h j
    cases ha : a.getLsbD j <;> simp_all

theorem u8_andNot_eq_zero (a b : UInt8) :
    a &&& ~~~ b = 0 ↔ ∀ j, a.toNat.testBit j = true → b.toNat.testBit j = true := by
  rw [← UInt8.toBitVec_inj, UInt8.toBitVec_and, UInt8.toBitVec_not]
  exact bv_andNot_eq_zero _ _

theorem u64_andNot_eq_zero (a b : UInt64) :
    a &&& ~~~ b = 0 ↔ ∀ j, a.toNat.testBit j = true → b.toNat.testBit j = true := by
  rw [← UInt64.toBitVec_inj, UInt64.toBitVec_and, UInt64.toBitVec_not]
  exact bv_andNot_eq_zero _ _

theorem u8_and_eq_right (a b : UInt8) :
    a &&& b = b ↔ ∀ j, b.toNat.testBit j = true → a.toNat.testBit j = true := by
  constructor
  · intro h j hj
    rw [← h, UInt8.toNat_and, Nat.testBit_and] at hj
    simp only [Bool.and_eq_true] at hj
    exact hj.1
  · intro h
    apply u8_ext
    intro j
    rw [UInt8.toNat_and, Nat.testBit_and]
    have := h j
    cases hb : b.toNat.testBit j <;> simp_all

theorem u8_and_ne_zero (a b : UInt8) :
    a &&& b ≠ 0 ↔ ∃ j, a.toNat.testBit j = true ∧ b.toNat.testBit j = true := by
  constructor
  · intro h
    apply Classical.byContradiction
    intro hc
    apply h
    apply u8_ext
    intro j
    rw [UInt8.toNat_and, Nat.testBit_and]
    have : ¬ (a.toNat.testBit j = true ∧ b.toNat.testBit j = true) := fun h => hc ⟨j, h⟩
    cases ha : a.toNat.testBit j <;> cases hb : b.toNat.testBit j <;> simp_all
  · rintro ⟨j, h1, h2⟩ h
    have : (a &&& b).toNat.testBit j = true := by
      rw [UInt8.toNat_and, Nat.testBit_and, h1, h2]; rfl
    rw [h] at this
    simp at this

theorem u64_and_ne_zero (a b : UInt64) :
    a &&& b ≠ 0 ↔ ∃ j, a.toNat.testBit j = true ∧ b.toNat.testBit j = true := by
  constructor
  · intro h
    apply Classical.byContradiction
    intro hc
    apply h
    apply u64_ext
    intro j
    rw [UInt64.toNat_and, Nat.testBit_and]
    have : ¬ (a.toNat.testBit j = true ∧ b.toNat.testBit j = true) := fun h => hc ⟨j, h⟩
    cases ha : a.toNat.testBit j <;> cases hb : b.toNat.testBit j <;> simp_all
  · rintro ⟨j, h1, h2⟩ h
    have : (a &&& b).toNat.testBit j = true := by
      rw [UInt64.toNat_and, Nat.testBit_and, h1, h2]; rfl
    rw [h] at this
    simp at this

/-! ## `HasBit` -/

theorem hasBit_iff {bs : List UInt8} {i j : Nat} (h : i < bs.length) :
    HasBit bs i j ↔ bs[i].toNat.testBit j = true := by
  simp [HasBit, h]

theorem _root_.Spec.HasBit.lt {bs : List UInt8} {i j : Nat} (h : HasBit bs i j) : i < bs.length := by
  obtain ⟨b, hb, _⟩ := h
  exact (List.getElem?_eq_some_iff.mp hb).1

theorem hasBit_ext {a b : List UInt8} (hl : a.length = b.length)
    (h : ∀ i j, HasBit a i j ↔ HasBit b i j) : a = b := by
  apply List.ext_getElem hl
  intro i h1 h2
  apply u8_ext
  intro j
  have := h i j
  rw [hasBit_iff h1, hasBit_iff h2] at this
  exact Bool.eq_iff_iff.mpr this

theorem not_hasBit_replicate (k i j : Nat) : ¬ HasBit (List.replicate k 0) i j := by
  rintro ⟨b, hb, hj⟩
  obtain ⟨h, rfl⟩ := List.getElem?_eq_some_iff.mp hb
  simp at hj

/-- Bits after `a[octet] |= mask`. -/
theorem orByte_spec (a : Arr n) (octet : Nat) (mask : UInt8) (h : octet < n) :
    ∃ r : Arr n, orByte (ε := ε) a octet mask = .ok r ∧
      ∀ i j, HasBit r.val i j ↔ HasBit a.val i j ∨ (i = octet ∧ mask.toNat.testBit j = true) := by
  have ho : octet < a.val.length := by rw [a.len]; exact h
  refine ⟨⟨a.val.set octet (a.val[octet] ||| mask), by simp [a.len]⟩, by rw [orByte, dif_pos h], ?_⟩
  intro i j
  simp only
  by_cases hi : i = octet
  · subst hi
    rw [hasBit_iff (by simpa using ho), hasBit_iff ho, List.getElem_set_self, UInt8.toNat_or,
      Nat.testBit_or, Bool.or_eq_true]
    simp
  · have : HasBit (a.val.set octet (a.val[octet] ||| mask)) i j ↔ HasBit a.val i j := by
      unfold HasBit
      rw [List.getElem?_set_ne (by omega)]
    rw [this]
    simp [hi]

theorem allLoop_spec (c : Cfg) (t : List ArrFlagDecl) (a : Arr n)
    (h : ∀ d ∈ t, d.gate.on c = true → d.octet < n) :
    ∃ r : Arr n, BFlags.allLoop (ε := ε) c t a = .ok r ∧
      ∀ i j, HasBit r.val i j ↔ HasBit a.val i j ∨ Declared c t i j := by
  induction t generalizing a with
  | nil => exact ⟨a, rfl, fun i j => by simp [Declared]⟩
  | cons d t ih =>
    rw [BFlags.allLoop]
    by_cases hg : d.gate.on c = true
    · rw [if_pos hg]
      obtain ⟨r, hr, hr'⟩ := orByte_spec (ε := ε) a d.octet d.mask (h d (by simp) hg)
      rw [hr]
      simp only [Res.bind_ok]
      obtain ⟨s, hs, hs'⟩ := ih r (fun x hx => h x (by simp [hx]))
      refine ⟨s, hs, fun i j => ?_⟩
      rw [hs', hr']
      simp only [Declared, List.mem_cons, exists_eq_or_imp, hg, true_and]
      rw [or_assoc, eq_comm (a := i)]
    · rw [if_neg hg]
      obtain ⟨s, hs, hs'⟩ := ih a (fun x hx => h x (by simp [hx]))
      refine ⟨s, hs, fun i j => ?_⟩
      rw [hs']
      simp only [Declared, List.mem_cons, exists_eq_or_imp, hg, false_and, false_or, Bool.false_eq_true]

theorem loopAll_spec (is : List Nat) (p : Nat → Res ε Bool) (q : Nat → Bool)
    (h : ∀ i ∈ is, p i = .ok (q i)) : loopAll is p = .ok (is.all q) := by
  induction is with
  | nil => rfl
  | cons i is ih =>
    rw [loopAll, h i (by simp)]
    simp only [Res.bind_ok, List.all_cons]
    cases q i
    · rfl
    · simp only [if_true, Bool.true_and]
      exact ih (fun x hx => h x (by simp [hx]))

theorem all_zip_iff (a b : List UInt8) (hl : a.length = b.length) (P : UInt8 × UInt8 → Bool) :
    (a.zip b).all P = true ↔ ∀ i (h : i < a.length), P (a[i], b[i]'(hl ▸ h)) = true := by
  rw [List.all_eq_true]
  constructor
  · intro h i hi
    apply h
    rw [List.mem_iff_getElem]
    exact ⟨i, by simp [hl] at *; omega, by simp⟩
  · intro h x hx
    obtain ⟨i, hi, rfl⟩ := List.mem_iff_getElem.mp hx
    rw [List.getElem_zip]
    exact h i (by simp at hi; omega)

/-! ## 64-bit masks -/

theorem testBit_foldl_or (l : List UInt64) (a : UInt64) (j : Nat) :
    (l.foldl (· ||| ·) a).toNat.testBit j = true ↔
      a.toNat.testBit j = true ∨ ∃ m ∈ l, m.toNat.testBit j = true := by
  induction l generalizing a with
  | nil => simp
  | cons m l ih =>
    rw [List.foldl_cons, ih, UInt64.toNat_or, Nat.testBit_or, Bool.or_eq_true]
    simp only [List.mem_cons, exists_eq_or_imp]
    rw [or_assoc]

theorem testBit_allBits (c : Cfg) (t : List FlagDecl) (j : Nat) :
    (allBits c t).toNat.testBit j = true ↔ Declared64 c t j := by
  rw [allBits, testBit_foldl_or]
  simp only [declared, List.mem_map, List.mem_filter, Declared64]
  constructor
  · rintro (h | ⟨m, ⟨d, ⟨h1, h2⟩, rfl⟩, h3⟩)
    · simp at h
    · exact ⟨d, h1, h2, h3⟩
  · rintro ⟨d, h1, h2, h3⟩
    exact Or.inr ⟨_, ⟨d, ⟨h1, h2⟩, rfl⟩, h3⟩

theorem fromBits64_iff (c : Cfg) (t : List FlagDecl) (x y : UInt64) :
    fromBits c t x = some y ↔ y = x ∧ ∀ j, x.toNat.testBit j = true → Declared64 c t j := by
  unfold fromBits
  simp only [← testBit_allBits, ← u64_andNot_eq_zero]
  by_cases h : x &&& ~~~ allBits c t = 0
  · rw [if_pos h]
    simp only [Option.some.injEq, h, and_true]
    exact eq_comm
  · rw [if_neg h]
    simp [h]

theorem testBit_fromBitsTruncate (c : Cfg) (t : List FlagDecl) (x : UInt64) (j : Nat) :
    (fromBitsTruncate c t x).toNat.testBit j = true ↔ x.toNat.testBit j = true ∧ Declared64 c t j := by
  rw [fromBitsTruncate, UInt64.toNat_and, Nat.testBit_and, Bool.and_eq_true, testBit_allBits]

end Bt
