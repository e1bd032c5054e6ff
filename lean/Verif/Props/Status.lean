import Verif.Lemmas.Status

/-! # C20: status codes map one-to-one -/

namespace Bt

open Spec

/-- **C20.** Every byte in the standard range decodes to the standard status with that code, whatever the
vendor does, and that status encodes back to the same byte. -/
theorem C20_decode_standard {VS E : Type} (c : Cfg) (vtry : UInt8 → Res E VS) (vinto : VS → UInt8)
    (b : UInt8) (h : b.toNat < statusCount c) :
    ∃ s : Status VS, standardStatuses[b.toNat]? = some s ∧
      Status.tryFrom c vtry b = .ok s ∧ s.into vinto = b ∧ s.available c := by
  have hl : b.toNat < (standardStatuses (VS := VS)).length := by
    rw [length_standardStatuses]; exact Nat.lt_of_lt_of_le h (statusCount_le c)
  refine ⟨standardStatuses[b.toNat], List.getElem?_eq_getElem hl, Status.tryFrom_standard c vtry b h, ?_, ?_⟩
  · have key : ∀ n (hn : n < 0x45),
        (standardStatuses[n]'(by rw [length_standardStatuses]; exact hn) : Status VS).into vinto
          = UInt8.ofNat n := by
      intro n hn
      interval_cases n <;> rfl
    rw [key b.toNat (by rw [length_standardStatuses] at hl; exact hl), UInt8.ofNat_toNat]
  · obtain ⟨v42, v50⟩ := c
    have key : ∀ n (hn : n < statusCount ⟨v42, v50⟩),
        (standardStatuses[n]'(by
          rw [length_standardStatuses]; exact Nat.lt_of_lt_of_le hn (statusCount_le _)) : Status VS).available
            ⟨v42, v50⟩ = true := by
      intro n hn
      cases v50
      · simp only [statusCount, Bool.false_eq_true, if_false] at hn
        interval_cases n <;> rfl
      · simp only [statusCount, if_true] at hn
        interval_cases n <;> rfl
    exact key _ h

example : statusCount ⟨false, false⟩ = 0x41 ∧ statusCount ⟨false, true⟩ = 0x45 := ⟨rfl, rfl⟩

/-- **C20.** Every other byte is handed to the vendor; a vendor status is wrapped, a vendor rejection is
passed on unchanged. -/
theorem C20_decode_vendor {VS E : Type} (c : Cfg) (vtry : UInt8 → Res E VS) (b : UInt8)
    (h : statusCount c ≤ b.toNat) :
    (∀ v, vtry b = .ok v → Status.tryFrom c vtry b = .ok (.vendor v)) ∧
    (∀ e, vtry b = .err e → Status.tryFrom c vtry b = .err e) := by
  rw [Status.tryFrom_vendor c vtry b h]
  constructor <;> intro _ hv <;> rw [hv] <;> rfl

example : statusCount ⟨true, false⟩ ≤ (0x41 : UInt8).toNat := by decide

/-- **C20.** Encoding then decoding gives back every standard status of the configuration. -/
theorem C20_encode_decode {VS E : Type} (c : Cfg) (vtry : UInt8 → Res E VS) (vinto : VS → UInt8)
    (s : Status VS) (hs : s.available c) (hv : ∀ v, s ≠ .vendor v) :
    Status.tryFrom c vtry (s.into vinto) = .ok s ∧ (s.into vinto).toNat < statusCount c := by
  obtain ⟨v42, v50⟩ := c
  cases s
  case vendor v => exact absurd rfl (hv v)
  all_goals first
    | (refine ⟨rfl, ?_⟩; cases v50 <;> simp [statusCount, Status.into])
    | (simp only [Status.available] at hs; subst hs; exact ⟨rfl, by simp [statusCount, Status.into]⟩)

example : (Status.limitReached : Status Unit).available ⟨false, true⟩ ∧
    Status.tryFrom (E := Unit) ⟨false, true⟩ (fun _ => .err ()) 0x43 =
      .ok (.limitReached : Status Unit) := by decide

/-- **C20.** A vendor status survives the round trip when its code is outside the standard range and the
vendor decodes what it encodes. -/
theorem C20_vendor_round_trip {VS E : Type} (c : Cfg) (vtry : UInt8 → Res E VS) (vinto : VS → UInt8)
    (v : VS) (h : statusCount c ≤ (vinto v).toNat) (hv : vtry (vinto v) = .ok v) :
    Status.tryFrom c vtry ((Status.vendor v).into vinto) = .ok (.vendor v) := by
  simp only [Status.into]
  rw [Status.tryFrom_vendor c vtry _ h, hv]
  rfl

example : Status.tryFrom (E := Unit) ⟨false, false⟩ (fun b => .ok b) ((Status.vendor 0x99).into id) =
    .ok (.vendor 0x99) := by decide

/-- **C20.** Distinct standard statuses have distinct codes. -/
theorem C20_injective {VS : Type} (vinto : VS → UInt8) (s t : Status VS)
    (hs : ∀ v, s ≠ .vendor v) (ht : ∀ v, t ≠ .vendor v) (h : s.into vinto = t.into vinto) : s = t := by
  have a (u : Status VS) : u.available ⟨true, true⟩ := by cases u <;> rfl
  have h1 := (C20_encode_decode (E := Unit) ⟨true, true⟩ (fun _ => .err ()) vinto s (a s) hs).1
  have h2 := (C20_encode_decode (E := Unit) ⟨true, true⟩ (fun _ => .err ()) vinto t (a t) ht).1
  rw [h, h2] at h1
  exact (Res.ok.inj h1).symm

example : (Status.authFailure : Status UInt8).into id ≠ (Status.pinOrKeyMissing : Status UInt8).into id := by decide

/-- **C20.** The codes follow the order of the standard's table. -/
theorem C20_codes {VS : Type} (vinto : VS → UInt8) :
    (standardStatuses (VS := VS)).map (fun s => (s.into vinto).toNat) = List.range 0x45 := by
  rfl

example : ((Status.unknownAdvertisingId : Status UInt8).into id) = 0x42 := rfl

end Bt
