import Verif.Spec.Flags
import Verif.Spec.FlagTables
import Verif.Lemmas.Flags

/-! # The declared bits of each table are the bits of the standard -/

namespace Bt

open Spec

/-- The four configurations. -/
theorem cfg_all {P : Cfg → Prop} [DecidablePred P]
    (h : ∀ c ∈ ([⟨false, false⟩, ⟨true, false⟩, ⟨false, true⟩, ⟨true, true⟩] : List Cfg), P c) (c : Cfg) :
    P c := by
  rcases c with ⟨a, b⟩
  cases a <;> cases b <;> exact h _ (by simp)

instance (c : Cfg) (t : List ArrFlagDecl) (i j : Nat) : Decidable (Declared c t i j) := by
  unfold Declared; infer_instance

instance (c : Cfg) (t : List FlagDecl) (j : Nat) : Decidable (Declared64 c t j) := by
  unfold Declared64; infer_instance

theorem declared_lt8 {c : Cfg} {t : List ArrFlagDecl} {i j : Nat} (h : Declared c t i j) : j < 8 := by
  obtain ⟨d, -, -, -, h⟩ := h
  refine Decidable.byContradiction fun hj => ?_
  rw [Nat.testBit_lt_two_pow (Nat.lt_of_lt_of_le d.mask.toNat_lt (Nat.pow_le_pow_right (by decide) (by omega)))] at h
  cases h

theorem declared64_lt64 {c : Cfg} {t : List FlagDecl} {j : Nat} (h : Declared64 c t j) : j < 64 := by
  obtain ⟨d, -, -, h⟩ := h
  refine Decidable.byContradiction fun hj => ?_
  rw [Nat.testBit_lt_two_pow (Nat.lt_of_lt_of_le d.mask.toNat_lt (Nat.pow_le_pow_right (by decide) (by omega)))] at h
  cases h

theorem declared_iff_of_check {P : Cfg → Nat → Nat → Prop} [∀ c i j, Decidable (P c i j)]
    {t : List ArrFlagDecl} (n : Nat) (ho : ∀ d ∈ t, d.octet < n)
    (hP : ∀ c i j, P c i j → i < n ∧ j < 8)
    (h : ∀ c ∈ ([⟨false, false⟩, ⟨true, false⟩, ⟨false, true⟩, ⟨true, true⟩] : List Cfg),
      ∀ i ∈ List.range n, ∀ j ∈ List.range 8, (Declared c t i j ↔ P c i j)) (c : Cfg) (i j : Nat) :
    Declared c t i j ↔ P c i j := by
  by_cases hb : i < n ∧ j < 8
  · refine h c ?_ i (List.mem_range.mpr hb.1) j (List.mem_range.mpr hb.2)
    rcases c with ⟨a, b⟩
    cases a <;> cases b <;> simp
  · constructor
    · intro hd
      refine absurd ⟨?_, declared_lt8 hd⟩ hb
      obtain ⟨d, hd, -, rfl, -⟩ := hd
      exact ho d hd
    · intro hp
      exact absurd (hP c i j hp) hb

theorem declared64_iff_of_check {P : Cfg → Nat → Prop} [∀ c j, Decidable (P c j)]
    {t : List FlagDecl} (hP : ∀ c j, P c j → j < 64)
    (h : ∀ c ∈ ([⟨false, false⟩, ⟨true, false⟩, ⟨false, true⟩, ⟨true, true⟩] : List Cfg),
      ∀ j ∈ List.range 64, (Declared64 c t j ↔ P c j)) (c : Cfg) (j : Nat) :
    Declared64 c t j ↔ P c j := by
  by_cases hb : j < 64
  · refine h c ?_ j (List.mem_range.mpr hb)
    rcases c with ⟨a, b⟩
    cases a <;> cases b <;> simp
  · constructor
    · intro hd; exact absurd (declared64_lt64 hd) hb
    · intro hp; exact absurd (hP c j hp) hb

theorem inOctets_lt {l : List Nat} {i j : Nat} (h : InOctets l i j) : i < l.length := by
  refine Decidable.byContradiction fun hi => ?_
  rw [InOctets, List.getD_eq_getElem?_getD, List.getElem?_eq_none (by omega)] at h
  simp at h

theorem commandFlags_sound : ∀ d ∈ commandFlags,
    ∀ c ∈ ([⟨false, false⟩, ⟨true, false⟩, ⟨false, true⟩, ⟨true, true⟩] : List Cfg), d.gate.on c = true →
      ∀ j ∈ List.range 8, d.mask.toNat.testBit j = true → CommandBit c d.octet j := by
  decide +kernel

theorem commandFlags_41 : ∀ i ∈ List.range 34, ∀ j ∈ List.range 8, InOctets commandOctets41 i j →
    ∃ d ∈ commandFlags, d.octet = i ∧ d.gate = .always ∧ d.mask.toNat.testBit j = true := by
  decide +kernel

theorem commandFlags_42 : ∀ i ∈ List.range 36, ∀ j ∈ List.range 8, InOctets commandOctets42 i j →
    ∃ d ∈ commandFlags, d.octet = i ∧ d.gate = .any42 ∧ d.mask.toNat.testBit j = true := by
  decide +kernel

theorem commandFlags_50 : ∀ i ∈ List.range 40, ∀ j ∈ List.range 8, InOctets commandOctets50 i j →
    ∃ d ∈ commandFlags, d.octet = i ∧ d.gate = .only50 ∧ d.mask.toNat.testBit j = true := by
  decide +kernel

theorem declared_commandFlags (c : Cfg) (i j : Nat) : Declared c commandFlags i j ↔ CommandBit c i j := by
  constructor
  · intro h
    have hj := declared_lt8 h
    obtain ⟨d, hd, hg, rfl, hb⟩ := h
    refine commandFlags_sound d hd c ?_ hg j (List.mem_range.mpr hj) hb
    rcases c with ⟨a, b⟩
    cases a <;> cases b <;> simp
  · rintro (h | ⟨hc, h⟩ | ⟨hc, h⟩)
    · obtain ⟨d, hd, ho, hg, hb⟩ := commandFlags_41 i (List.mem_range.mpr (inOctets_lt h)) j
        (List.mem_range.mpr h.1) h
      exact ⟨d, hd, by rw [hg]; rfl, ho, hb⟩
    · obtain ⟨d, hd, ho, hg, hb⟩ := commandFlags_42 i (List.mem_range.mpr (inOctets_lt h)) j
        (List.mem_range.mpr h.1) h
      refine ⟨d, hd, ?_, ho, hb⟩
      rw [hg]
      rcases hc with hc | hc <;> simp [Gate.on, Cfg.any42, hc]
    · obtain ⟨d, hd, ho, hg, hb⟩ := commandFlags_50 i (List.mem_range.mpr (inOctets_lt h)) j
        (List.mem_range.mpr h.1) h
      exact ⟨d, hd, by rw [hg]; exact hc, ho, hb⟩

theorem declared_channelClassification (c : Cfg) (i j : Nat) :
    Declared c channelClassification i j ↔ ChannelBit i j := by
  refine declared_iff_of_check (P := fun _ => ChannelBit) 5 (by decide +kernel) ?_ (by decide +kernel) c i j
  rintro c i j ⟨h1, h2⟩
  omega

theorem declared_lmpFeatures (c : Cfg) (j : Nat) : Declared64 c lmpFeatures j ↔ LmpFeatureBit j :=
  declared64_iff_of_check (P := fun _ => LmpFeatureBit) (fun _ _ h => h.1) (by decide +kernel) c j

theorem declared_leFeatures (c : Cfg) (j : Nat) : Declared64 c leFeatures j ↔ LeFeatureBit c j :=
  declared64_iff_of_check (P := LeFeatureBit)
    (by rintro c j (h | ⟨-, h⟩ | ⟨-, h⟩) <;> omega) (by decide +kernel) c j

theorem declared_linkLayerFeature (c : Cfg) (j : Nat) :
    Declared64 c linkLayerFeature j ↔ LeFeatureBit c j :=
  declared64_iff_of_check (P := LeFeatureBit)
    (by rintro c j (h | ⟨-, h⟩ | ⟨-, h⟩) <;> omega) (by decide +kernel) c j

theorem declared_leStates (c : Cfg) (j : Nat) : Declared64 c leStates j ↔ LeStateBit j :=
  declared64_iff_of_check (P := fun _ => LeStateBit) (fun _ j h => by unfold LeStateBit at h; omega)
    (by decide +kernel) c j

theorem declared_eventFlags (c : Cfg) (j : Nat) : Declared64 c eventFlags j ↔ EventMaskBit j :=
  declared64_iff_of_check (P := fun _ => EventMaskBit) (fun _ _ h => by have := h.1; omega)
    (by decide +kernel) c j

theorem declared_leEventFlags (c : Cfg) (j : Nat) : Declared64 c leEventFlags j ↔ LeEventMaskBit c j :=
  declared64_iff_of_check (P := LeEventMaskBit)
    (by rintro c j (h | ⟨-, h⟩ | ⟨-, h⟩) <;> omega) (by decide +kernel) c j

/-! ## 64-bit fields -/

theorem fromBits64_bits {c : Cfg} {t : List FlagDecl} {P : Nat → Prop} (hP : ∀ j, Declared64 c t j ↔ P j)
    (x y : UInt64) : fromBits c t x = some y ↔ y = x ∧ ∀ j, x.toNat.testBit j = true → P j := by
  rw [fromBits64_iff]
  exact and_congr_right fun _ => forall_congr' fun j => imp_congr_right fun _ => hP j

theorem truncate_bits {c : Cfg} {t : List FlagDecl} {P : Nat → Prop} (hP : ∀ j, Declared64 c t j ↔ P j)
    (x : UInt64) (j : Nat) :
    (fromBitsTruncate c t x).toNat.testBit j = true ↔ x.toNat.testBit j = true ∧ P j := by
  rw [testBit_fromBitsTruncate, hP]

theorem leStates_some (c : Cfg) (x y : UInt64) :
    fromBits c leStates x = some y ↔ y = x ∧ ∀ j, x.toNat.testBit j = true → LeStateBit j :=
  fromBits64_bits (declared_leStates c) x y

theorem linkLayerFeature_some (c : Cfg) (x y : UInt64) :
    fromBits c linkLayerFeature x = some y ↔ y = x ∧ ∀ j, x.toNat.testBit j = true → LeFeatureBit c j :=
  fromBits64_bits (declared_linkLayerFeature c) x y

theorem lmpFeatures_truncate (c : Cfg) (x : UInt64) (j : Nat) :
    (fromBitsTruncate c lmpFeatures x).toNat.testBit j = true ↔
      x.toNat.testBit j = true ∧ LmpFeatureBit j :=
  truncate_bits (declared_lmpFeatures c) x j

theorem leFeatures_truncate (c : Cfg) (x : UInt64) (j : Nat) :
    (fromBitsTruncate c leFeatures x).toNat.testBit j = true ↔
      x.toNat.testBit j = true ∧ LeFeatureBit c j :=
  truncate_bits (declared_leFeatures c) x j

end Bt
