import Verif.Spec.Status
import Mathlib.Tactic.IntervalCases

/-! # Lemmas on status codes -/

namespace Bt

open Spec

variable {VS E : Type}

theorem length_standardStatuses : (standardStatuses (VS := VS)).length = 0x45 := rfl

theorem statusCount_le (c : Cfg) : statusCount c ≤ 0x45 := by
  unfold statusCount; split <;> omega

theorem Status.tryFrom_ofNat_standard (c : Cfg) (vtry : UInt8 → Res E VS) (n : Nat)
    (h : n < statusCount c) :
    Status.tryFrom c vtry (UInt8.ofNat n) =
      .ok (standardStatuses[n]'(by rw [length_standardStatuses]; exact Nat.lt_of_lt_of_le h (statusCount_le c))) := by
  obtain ⟨v42, v50⟩ := c
  cases v50
  · simp only [statusCount, Bool.false_eq_true, if_false] at h
    interval_cases n <;> rfl
  · simp only [statusCount, if_true] at h
    interval_cases n <;> rfl

theorem Status.tryFrom_standard (c : Cfg) (vtry : UInt8 → Res E VS) (b : UInt8)
    (h : b.toNat < statusCount c) :
    Status.tryFrom c vtry b =
      .ok (standardStatuses[b.toNat]'(by
        rw [length_standardStatuses]; exact Nat.lt_of_lt_of_le h (statusCount_le c))) := by
  have := Status.tryFrom_ofNat_standard c vtry b.toNat h
  rwa [UInt8.ofNat_toNat] at this

theorem Status.tryFrom_vendor (c : Cfg) (vtry : UInt8 → Res E VS) (b : UInt8)
    (h : statusCount c ≤ b.toNat) :
    Status.tryFrom c vtry b = (vtry b).mapOk .vendor := by
  have h' : 0x41 ≤ b.toNat := by unfold statusCount at h; split at h <;> omega
  unfold Status.tryFrom
  split
  all_goals first
    | rfl
    | (exfalso; revert h'; decide)
    | (cases hc : c.v50 <;> simp [statusCount, hc] at h ⊢)

theorem tryFrom_ok_iff (c : Cfg) (V : Vendor) (b : UInt8) (s : Status V.VStatus) :
    Status.tryFrom c V.statusTryFrom b = .ok s ↔ StatusByte c V b s := by
  unfold StatusByte
  split
  · rename_i h
    have hl : b.toNat < (standardStatuses (VS := V.VStatus)).length := by
      rw [length_standardStatuses]; exact Nat.lt_of_lt_of_le h (statusCount_le c)
    rw [Status.tryFrom_standard c _ b h, List.getElem?_eq_getElem hl]
    simp
  · rename_i h
    rw [Status.tryFrom_vendor c _ b (by omega)]
    cases V.statusTryFrom b <;> simp [eq_comm]

theorem tryStatus_ok_iff (c : Cfg) (V : Vendor) (b : UInt8) (s : Status V.VStatus) :
    tryStatus c V b = .ok s ↔ StatusByte c V b s := by
  rw [← tryFrom_ok_iff, tryStatus]
  cases Status.tryFrom c V.statusTryFrom b <;> simp

theorem tryReason_ok_iff (c : Cfg) (V : Vendor) (b : UInt8) (s : Status V.VStatus) :
    tryReason c V b = .ok s ↔ StatusByte c V b s := by
  rw [← tryFrom_ok_iff, tryReason]
  cases Status.tryFrom c V.statusTryFrom b <;> simp

end Bt
