import Verif.Lemmas.Res
import Verif.Lemmas.Status
import Verif.Lemmas.Types
import Verif.Props.IntervalBytes
import Verif.Props.Flags
import Verif.Spec.Events

/-! # Lemmas on the fields of events -/

namespace Bt

open Spec

variable {VE : Type}

theorem u8_lt_iff (a b : UInt8) : a < b ↔ a.toNat < b.toNat := UInt8.lt_iff_toNat_lt

/-- A property of all bytes, checked on all 256 of them. -/
theorem u8_all {P : UInt8 → Prop} (h : ∀ n : Fin 256, P (UInt8.ofNat n)) (b : UInt8) : P b := by
  have := h ⟨b.toNat, b.toNat_lt⟩
  simpa using this

theorem linkType_ok (b : UInt8) (x : LinkType) :
    LinkType.tryFrom (VE := VE) b = .ok x ↔ b = linkTypeCode x := by
  unfold LinkType.tryFrom
  split <;> cases x <;> simp_all [linkTypeCode]


theorem linkType_err (b : UInt8) (e : EvError VE) :
    LinkType.tryFrom (VE := VE) b = .err e ↔ 1 < b ∧ e = .badLinkType b := by
  unfold LinkType.tryFrom
  split
  · simp
  · simp
  · rename_i h0 h1
    have : 1 < b := by
      rw [u8_lt_iff]
      have a0 : b.toNat ≠ 0 := fun h => h0 (UInt8.toNat.inj h)
      have a1 : b.toNat ≠ 1 := fun h => h1 (UInt8.toNat.inj h)
      simp; omega
    simp [this, eq_comm]

theorem linkType_panic (b : UInt8) : LinkType.tryFrom (VE := VE) b ≠ .panic := by
  unfold LinkType.tryFrom
  split <;> simp

theorem encryptionEnabled_ok (b : UInt8) (x : Bool) :
    tryIntoEncryptionEnabled (VE := VE) b = .ok x ↔ b = boolCode x := by
  unfold tryIntoEncryptionEnabled
  split <;> cases x <;> simp_all [boolCode]

theorem encryptionEnabled_err (b : UInt8) (e : EvError VE) :
    tryIntoEncryptionEnabled (VE := VE) b = .err e ↔ 1 < b ∧ e = .badEncryptionEnabledValue b := by
  unfold tryIntoEncryptionEnabled
  split
  · simp
  · simp
  · rename_i h0 h1
    have : 1 < b := by
      rw [u8_lt_iff]
      have a0 : b.toNat ≠ 0 := fun h => h0 (UInt8.toNat.inj h)
      have a1 : b.toNat ≠ 1 := fun h => h1 (UInt8.toNat.inj h)
      simp; omega
    simp [this, eq_comm]

theorem encryptionEnabled_panic (b : UInt8) : tryIntoEncryptionEnabled (VE := VE) b ≠ .panic := by
  unfold tryIntoEncryptionEnabled
  split <;> simp

theorem encryption_ok (b : UInt8) (x : Encryption) :
    Encryption.tryFrom (VE := VE) b = .ok x ↔ b = encryptionCode x := by
  unfold Encryption.tryFrom
  split <;> cases x <;> simp_all [encryptionCode]

theorem encryption_err (b : UInt8) (e : EvError VE) :
    Encryption.tryFrom (VE := VE) b = .err e ↔ 2 < b ∧ e = .badEncryptionType b := by
  unfold Encryption.tryFrom
  split
  · simp
  · simp
  · simp
  · rename_i h0 h1 h2
    have : 2 < b := by
      rw [u8_lt_iff]
      have a0 : b.toNat ≠ 0 := fun h => h0 (UInt8.toNat.inj h)
      have a1 : b.toNat ≠ 1 := fun h => h1 (UInt8.toNat.inj h)
      have a2 : b.toNat ≠ 2 := fun h => h2 (UInt8.toNat.inj h)
      simp; omega
    simp [this, eq_comm]

theorem encryption_panic (b : UInt8) : Encryption.tryFrom (VE := VE) b ≠ .panic := by
  unfold Encryption.tryFrom
  split <;> simp

theorem role_ok (b : UInt8) (x : ConnectionRole) :
    ConnectionRole.tryFrom (VE := VE) b = .ok x ↔ b = roleCode x := by
  unfold ConnectionRole.tryFrom
  split <;> cases x <;> simp_all [roleCode]

theorem role_err (b : UInt8) (e : EvError VE) :
    ConnectionRole.tryFrom (VE := VE) b = .err e ↔ 1 < b ∧ e = .badLeConnectionRole b := by
  unfold ConnectionRole.tryFrom
  split
  · simp
  · simp
  · rename_i h0 h1
    have : 1 < b := by
      rw [u8_lt_iff]
      have a0 : b.toNat ≠ 0 := fun h => h0 (UInt8.toNat.inj h)
      have a1 : b.toNat ≠ 1 := fun h => h1 (UInt8.toNat.inj h)
      simp; omega
    simp [this, eq_comm]

theorem role_panic (b : UInt8) : ConnectionRole.tryFrom (VE := VE) b ≠ .panic := by
  unfold ConnectionRole.tryFrom
  split <;> simp

theorem clock_ok (b : UInt8) (x : CentralClockAccuracy) :
    CentralClockAccuracy.tryFrom (VE := VE) b = .ok x ↔ b = clockCode x := by
  unfold CentralClockAccuracy.tryFrom
  split <;> cases x <;> simp_all [clockCode]

theorem clock_err (b : UInt8) (e : EvError VE) :
    CentralClockAccuracy.tryFrom (VE := VE) b = .err e ↔ 7 < b ∧ e = .badLeCentralClockAccuracy b := by
  unfold CentralClockAccuracy.tryFrom
  split
  · simp
  · simp
  · simp
  · simp
  · simp
  · simp
  · simp
  · simp
  · rename_i h0 h1 h2 h3 h4 h5 h6 h7
    have : 7 < b := by
      rw [u8_lt_iff]
      have a0 : b.toNat ≠ 0 := fun h => h0 (UInt8.toNat.inj h)
      have a1 : b.toNat ≠ 1 := fun h => h1 (UInt8.toNat.inj h)
      have a2 : b.toNat ≠ 2 := fun h => h2 (UInt8.toNat.inj h)
      have a3 : b.toNat ≠ 3 := fun h => h3 (UInt8.toNat.inj h)
      have a4 : b.toNat ≠ 4 := fun h => h4 (UInt8.toNat.inj h)
      have a5 : b.toNat ≠ 5 := fun h => h5 (UInt8.toNat.inj h)
      have a6 : b.toNat ≠ 6 := fun h => h6 (UInt8.toNat.inj h)
      have a7 : b.toNat ≠ 7 := fun h => h7 (UInt8.toNat.inj h)
      simp; omega
    simp [this, eq_comm]

theorem clock_panic (b : UInt8) : CentralClockAccuracy.tryFrom (VE := VE) b ≠ .panic := by
  unfold CentralClockAccuracy.tryFrom
  split <;> simp

theorem phy_ok (b : UInt8) (x : Phy) :
    Phy.tryFrom (VE := VE) b = .ok x ↔ b = phyCode x := by
  unfold Phy.tryFrom
  split <;> cases x <;> simp_all [phyCode]

theorem phy_err (b : UInt8) (e : EvError VE) :
    Phy.tryFrom (VE := VE) b = .err e ↔ 2 < b ∧ e = .badPhy b := by
  unfold Phy.tryFrom
  split
  · simp
  · simp
  · simp
  · rename_i h0 h1 h2
    have : 2 < b := by
      rw [u8_lt_iff]
      have a0 : b.toNat ≠ 0 := fun h => h0 (UInt8.toNat.inj h)
      have a1 : b.toNat ≠ 1 := fun h => h1 (UInt8.toNat.inj h)
      have a2 : b.toNat ≠ 2 := fun h => h2 (UInt8.toNat.inj h)
      simp; omega
    simp [this, eq_comm]

theorem phy_panic (b : UInt8) : Phy.tryFrom (VE := VE) b ≠ .panic := by
  unfold Phy.tryFrom
  split <;> simp

theorem advEvent_ok (b : UInt8) (x : AdvertisementEvent) :
    AdvertisementEvent.tryFrom (VE := VE) b = .ok x ↔ b = advEventCode x := by
  unfold AdvertisementEvent.tryFrom
  split <;> cases x <;> simp_all [advEventCode]

theorem advEvent_err (b : UInt8) (e : EvError VE) :
    AdvertisementEvent.tryFrom (VE := VE) b = .err e ↔ 4 < b ∧ e = .badLeAdvertisementType b := by
  unfold AdvertisementEvent.tryFrom
  split
  · simp
  · simp
  · simp
  · simp
  · simp
  · rename_i h0 h1 h2 h3 h4
    have : 4 < b := by
      rw [u8_lt_iff]
      have a0 : b.toNat ≠ 0 := fun h => h0 (UInt8.toNat.inj h)
      have a1 : b.toNat ≠ 1 := fun h => h1 (UInt8.toNat.inj h)
      have a2 : b.toNat ≠ 2 := fun h => h2 (UInt8.toNat.inj h)
      have a3 : b.toNat ≠ 3 := fun h => h3 (UInt8.toNat.inj h)
      have a4 : b.toNat ≠ 4 := fun h => h4 (UInt8.toNat.inj h)
      simp; omega
    simp [this, eq_comm]

theorem advEvent_panic (b : UInt8) : AdvertisementEvent.tryFrom (VE := VE) b ≠ .panic := by
  unfold AdvertisementEvent.tryFrom
  split <;> simp

theorem addrType_ok (b : UInt8) (a : BdAddr) (x : BdAddrType) :
    toBdAddrType b a = .ok x ↔ b :: a.val.val = addrTypeBytes x := by
  have inj (y : BdAddr) : a.val.val = y.val.val ↔ a = y := by
    constructor
    · intro h; obtain ⟨a⟩ := a; obtain ⟨y⟩ := y; exact congrArg _ (Arr.ext' h)
    · intro h; rw [h]
  unfold toBdAddrType
  split <;> cases x <;> simp_all [addrTypeBytes]

theorem addrType_err (b : UInt8) (a : BdAddr) (e : UInt8) :
    toBdAddrType b a = .err e ↔ 1 < b ∧ e = b := by
  unfold toBdAddrType
  split
  · simp
  · simp
  · rename_i h0 h1
    have : 1 < b := by
      rw [u8_lt_iff]
      have a0 : b.toNat ≠ 0 := fun h => h0 (UInt8.toNat.inj h)
      have a1 : b.toNat ≠ 1 := fun h => h1 (UInt8.toNat.inj h)
      simp; omega
    simp [this, eq_comm]

theorem addrType_panic (b : UInt8) (a : BdAddr) : toBdAddrType b a ≠ .panic := by
  unfold toBdAddrType
  split <;> simp

section Status
variable (c : Cfg) (V : Vendor)

theorem tryFrom_err_iff (b : UInt8) (w : UInt8) :
    Status.tryFrom c V.statusTryFrom b = .err w ↔ statusCount c ≤ b.toNat ∧ V.statusTryFrom b = .err w := by
  by_cases h : b.toNat < statusCount c
  · rw [Status.tryFrom_standard c _ b h]
    constructor
    · intro h; cases h
    · rintro ⟨h, _⟩; omega
  · rw [Status.tryFrom_vendor c _ b (by omega), Res.mapOk_eq_err]
    constructor
    · intro h'; exact ⟨by omega, h'⟩
    · rintro ⟨_, h⟩; exact h

theorem tryStatus_err (b : UInt8) (e : EvError V.VErr) :
    tryStatus c V b = .err e ↔
      ∃ w, statusCount c ≤ b.toNat ∧ V.statusTryFrom b = .err w ∧ e = .badStatus w := by
  rw [tryStatus, Res.mapErr_eq_err]
  constructor
  · rintro ⟨w, h, rfl⟩
    exact ⟨w, ((tryFrom_err_iff c V b w).mp h).1, ((tryFrom_err_iff c V b w).mp h).2, rfl⟩
  · rintro ⟨w, h1, h2, rfl⟩
    exact ⟨w, (tryFrom_err_iff c V b w).mpr ⟨h1, h2⟩, rfl⟩

theorem tryReason_err (b : UInt8) (e : EvError V.VErr) :
    tryReason c V b = .err e ↔
      ∃ w, statusCount c ≤ b.toNat ∧ V.statusTryFrom b = .err w ∧ e = .badReason w := by
  rw [tryReason, Res.mapErr_eq_err]
  constructor
  · rintro ⟨w, h, rfl⟩
    exact ⟨w, ((tryFrom_err_iff c V b w).mp h).1, ((tryFrom_err_iff c V b w).mp h).2, rfl⟩
  · rintro ⟨w, h1, h2, rfl⟩
    exact ⟨w, (tryFrom_err_iff c V b w).mpr ⟨h1, h2⟩, rfl⟩

theorem tryFrom_panic (hV : VendorReturns V) (b : UInt8) :
    Status.tryFrom c V.statusTryFrom b ≠ .panic := by
  by_cases h : b.toNat < statusCount c
  · rw [Status.tryFrom_standard c _ b h]; simp
  · rw [Status.tryFrom_vendor c _ b (by omega), ne_eq, Res.mapOk_eq_panic]
    exact hV.status b

theorem tryStatus_panic (hV : VendorReturns V) (b : UInt8) : tryStatus c V b ≠ .panic := by
  rw [tryStatus, ne_eq, Res.mapErr_eq_panic]
  exact tryFrom_panic c V hV b

theorem tryReason_panic (hV : VendorReturns V) (b : UInt8) : tryReason c V b ≠ .panic := by
  rw [tryReason, ne_eq, Res.mapErr_eq_panic]
  exact tryFrom_panic c V hV b

end Status

/-! ## Connection parameters -/

theorem interval_ok (a l t : UInt16) (i : FixedConnectionInterval) :
    FixedConnectionInterval.fromBytes (le16 a ++ le16 l ++ le16 t) = .ok i ↔ IntervalFields a l t i := by
  have := C30_fixed_from_bytes a l t [] i
  simpa [IntervalFields] using this

theorem interval_err_iff (a l t : UInt16) (e : ConnectionIntervalError) :
    FixedConnectionInterval.fromBytes (le16 a ++ le16 l ++ le16 t) = .err e ↔
      ∃ lo tmo : Duration, lo.ns = 1250 * us * a.toNat ∧ tmo.ns = 10 * ms * t.toNat ∧
        FirstViolation lo lo l tmo e := by
  have := (C30_errors a a l t [] e).2
  rw [List.append_nil] at this
  rw [this]
  constructor
  · exact fun h => h.2
  · rintro ⟨lo, tmo, h1, h2, h3⟩
    refine ⟨?_, lo, tmo, h1, h2, h3⟩
    rintro rfl
    exact h3

theorem interval_err (a l t : UInt16) (e : ConnectionIntervalError)
    (h : FixedConnectionInterval.fromBytes (le16 a ++ le16 l ++ le16 t) = .err e) :
    ∃ lo tmo : Duration, lo.ns = 1250 * us * a.toNat ∧ tmo.ns = 10 * ms * t.toNat ∧
      FirstViolation lo lo l tmo e :=
  (interval_err_iff a l t e).mp h

/-! ## Signed bytes -/

theorem twos_toInt8 (b : UInt8) : twos b.toInt8 = b := by
  revert b
  apply u8_all
  decide +kernel

theorem toInt8_twos (x : Int8) : (twos x).toInt8 = x := by
  have : x = x.toUInt8.toInt8 := by simp
  rw [this, twos_toInt8]

theorem twos_exists (b : UInt8) : ∃ x, b = twos x := ⟨_, (twos_toInt8 b).symm⟩

end Bt
