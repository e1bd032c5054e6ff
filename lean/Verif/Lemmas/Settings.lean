import Verif.Spec.Settings
import Verif.Lemmas.Acceptable

/-! # Command packets and the settings of a controller -/

namespace Bt
open Spec

variable {E VS : Type}

theorem agree_empty : Agree {} {} where
  eventMask := trivial
  leEventMask := trivial
  randomAddress := trivial
  advertising := trivial
  advertisingData := rfl
  scanResponse := rfl
  advertisingOn := rfl
  scan := trivial
  scanning := rfl
  whiteList := by intro e; simp
  channels := trivial

theorem inUnits (d : Duration) (h : d.ns < 65536 * (625 * us)) : InUnits d (units625us d.ns % 65536) := by
  unfold InUnits units625us
  simp only [us] at *
  omega

theorem leVal_le64 (m : UInt64) : leVal (le64 m) = m.toNat := by
  rw [leVal_eq_leNat, le64, ← leBytes_eq_le, leNat_leBytes]
  exact Nat.mod_eq_of_lt m.toNat_lt

theorem sameAdvertising {c : Cfg} (p : AdvertisingParameters) (h : BuiltAdv c p.advertisingInterval) :
    let ps := cmdParams (VS := VS) (.leSetAdvertisingParameters p)
    SameAdvertising p ⟨u16At ps 0, u16At ps 2, byteAt ps 4, byteAt ps 5, byteAt ps 6, (ps.drop 7).take 6,
      byteAt ps 13, byteAt ps 14⟩ := by
  obtain ⟨-, h2, h3⟩ := h.bounds
  obtain ⟨⟨lo, hi, t⟩, own, peer, ch, f⟩ := p
  simp only at h2 h3
  have e1 : InUnits lo (units625us lo.ns % 65536) := inUnits lo (by simp only [us, ms] at *; omega)
  have e2 : InUnits hi (units625us hi.ns % 65536) := inUnits hi (by simp only [us, ms] at *; omega)
  obtain ⟨k, b0, b1, b2, b3, b4, b5, hp, hd⟩ : ∃ k b0 b1 b2 b3 b4 b5,
      addrTypeBytes peer = [k, b0, b1, b2, b3, b4, b5] ∧ SameDevice peer k.toNat [b0, b1, b2, b3, b4, b5] := by
    obtain ⟨⟨⟨x, hx⟩⟩⟩ | ⟨⟨⟨x, hx⟩⟩⟩ := peer <;>
      match x, hx with
      | [b0, b1, b2, b3, b4, b5], _ => exact ⟨_, b0, b1, b2, b3, b4, b5, rfl, rfl, rfl⟩
  have hps : cmdParams (VS := VS) (.leSetAdvertisingParameters ⟨⟨lo, hi, t⟩, own, peer, ch, f⟩) =
      (if t = .connectableDirectedHighDutyCycle then [0, 0, 0, 0]
        else le 2 (units625us lo.ns) ++ le 2 (units625us hi.ns)) ++
      [advTypeCode t, ownAddressCode own, k, b0, b1, b2, b3, b4, b5, ch, advFilterCode f] := by
    simp only [cmdParams, advIntervalBytes, hp]
    simp
  rw [hps]
  by_cases ht : t = .connectableDirectedHighDutyCycle
  · rw [if_pos ht]
    exact ⟨rfl, fun h => absurd ht h, rfl, hd, rfl, rfl⟩
  · rw [if_neg ht]
    simp only [le_two, List.cons_append, List.nil_append]
    refine ⟨rfl, fun _ => ⟨?_, ?_⟩, rfl, hd, rfl, rfl⟩
    · exact (congrArg (InUnits lo) (u16At_zero (units625us lo.ns) _)).mpr e1
    · refine (congrArg (InUnits hi) (u16At_zero (units625us hi.ns) ?_)).mpr e2
      exact advTypeCode t :: ownAddressCode own :: k :: b0 :: b1 :: b2 :: b3 :: b4 :: b5 :: ch :: [advFilterCode f]

theorem sameScan (p : ScanParameters) (h : BuiltScanWindow p.scanWindow) :
    let ps := cmdParams (VS := VS) (.leSetScanParameters p)
    SameScan p ⟨byteAt ps 0, u16At ps 1, u16At ps 3, byteAt ps 5, byteAt ps 6⟩ := by
  obtain ⟨h1, h2⟩ := h.bounds
  constructor <;> simp only [cmdParams, scanWindowBytes, le_two, List.cons_append, List.nil_append, byteAt_succ,
    byteAt_zero, u16At_succ, u16At_zero]
  · exact inUnits _ h1
  · exact inUnits _ h2

theorem entry_device (a : BdAddrType) (e : Nat × List UInt8) :
    e = entryOf (addrTypeBytes a) ↔ Listed (.device a) e := by
  obtain ⟨n, bs⟩ := e
  cases a <;> simp [entryOf, addrTypeBytes, byteAt_zero, Listed, SameDevice]

theorem entry_anonymous (e : Nat × List UInt8) :
    e = entryOf (0xFF :: zeroes 6) ↔ Listed .anonymous e := Iff.rfl

theorem listed_inj {p q : Peer} {e : Nat × List UInt8} (hp : Listed p e) (hq : Listed q e) : p = q := by
  obtain ⟨n, bs⟩ := e
  cases p with
  | anonymous =>
    cases q with
    | anonymous => rfl
    | device b =>
      cases hp
      cases b <;> (have := hq.1; simp at this)
  | device a =>
    cases q with
    | anonymous =>
      cases hq
      cases a <;> (have := hp.1; simp at this)
    | device b =>
      cases a <;> cases b <;> simp only [Listed, SameDevice] at hp hq
      · rename_i x y
        obtain ⟨⟨x, hx⟩⟩ := x
        obtain ⟨⟨y, hy⟩⟩ := y
        obtain ⟨-, rfl⟩ := hp
        obtain ⟨-, h⟩ := hq
        cases h
        rfl
      · omega
      · omega
      · rename_i x y
        obtain ⟨⟨x, hx⟩⟩ := x
        obtain ⟨⟨y, hy⟩⟩ := y
        obtain ⟨-, rfl⟩ := hp
        obtain ⟨-, h⟩ := hq
        cases h
        rfl

theorem listed_add {L : Peer → Bool} {M : Nat × List UInt8 → Bool} {p : Peer} {x : Nat × List UInt8}
    (h : ∀ e, M e = true ↔ ∃ q, L q = true ∧ Listed q e) (hx : ∀ e, e = x ↔ Listed p e) (e : Nat × List UInt8) :
    (decide (e = x) || M e) = true ↔ ∃ q, (decide (q = p) || L q) = true ∧ Listed q e := by
  simp only [Bool.or_eq_true, decide_eq_true_eq, h, hx]
  constructor
  · rintro (h | ⟨q, h1, h2⟩)
    · exact ⟨p, .inl rfl, h⟩
    · exact ⟨q, .inr h1, h2⟩
  · rintro ⟨q, rfl | h1, h2⟩
    · exact .inl h2
    · exact .inr ⟨q, h1, h2⟩

theorem listed_remove {L : Peer → Bool} {M : Nat × List UInt8 → Bool} {p : Peer} {x : Nat × List UInt8}
    (h : ∀ e, M e = true ↔ ∃ q, L q = true ∧ Listed q e) (hx : ∀ e, e = x ↔ Listed p e) (e : Nat × List UInt8) :
    (!decide (e = x) && M e) = true ↔ ∃ q, (!decide (q = p) && L q) = true ∧ Listed q e := by
  simp only [Bool.and_eq_true, Bool.not_eq_true', decide_eq_false_iff_not, h, hx]
  constructor
  · rintro ⟨h1, q, h2, h3⟩
    exact ⟨q, ⟨fun hq => h1 (hq ▸ h3), h2⟩, h3⟩
  · rintro ⟨q, ⟨h1, h2⟩, h3⟩
    exact ⟨fun h => h1 (listed_inj h3 h), q, h2, h3⟩

theorem outbound_data (d : List UInt8) (h : d.length ≤ 31) :
    ((outboundData d).drop 1).take (byteAt (outboundData d) 0) = d := by
  have : (UInt8.ofNat d.length).toNat = d.length := by rw [UInt8.toNat_ofNat']; omega
  simp [outboundData, byteAt_zero, this]

theorem agree_step {c : Cfg} {a : Asked} {t : Told} (h : Agree a t) (cmd : Command VS)
    (hc : cmd.Constructible c) (hr : cmdReject (E := E) cmd = none) :
    Agree (a.say cmd) (t.hear (cmdOpcode cmd) (cmdParams cmd)) := by
  cases cmd
  case reset => exact agree_empty
  case setEventMask m => exact { h with eventMask := leVal_le64 m }
  case leSetEventMask m => exact { h with leEventMask := leVal_le64 m }
  case leSetRandomAddress r => exact { h with randomAddress := rfl }
  case leSetAdvertisingParameters p => exact { h with advertising := sameAdvertising (VS := VS) p hc }
  case leSetAdvertisingData d =>
    have hd : d.length ≤ 31 := by
      simp only [cmdReject] at hr
      split at hr
      · cases hr
      · omega
    exact { h with advertisingData := congrArg some (outbound_data d hd).symm }
  case leSetScanResponseData d =>
    have hd : d.length ≤ 31 := by
      simp only [cmdReject] at hr
      split at hr
      · cases hr
      · omega
    exact { h with scanResponse := congrArg some (outbound_data d hd).symm }
  case leSetAdvertiseEnable b => exact { h with advertisingOn := by cases b <;> rfl }
  case leSetAdvertisingEnable b => exact { h with advertisingOn := by cases b <;> rfl }
  case leSetScanParameters p => exact { h with scan := sameScan (VS := VS) p hc }
  case leSetScanEnable e f => exact { h with scanning := by cases e <;> cases f <;> rfl }
  case leClearWhiteList => exact { h with whiteList := agree_empty.whiteList }
  case leAddDeviceToWhiteList d => exact { h with whiteList := listed_add h.whiteList (entry_device d) }
  case leRemoveDeviceFromWhiteList d => exact { h with whiteList := listed_remove h.whiteList (entry_device d) }
  case leAddAnonAdvertisingDevicesToWhiteList =>
    exact { h with whiteList := listed_add h.whiteList entry_anonymous }
  case leRemoveAnonAdvertisingDevicesFromWhiteList =>
    exact { h with whiteList := listed_remove h.whiteList entry_anonymous }
  case leSetHostChannelClassification ch => exact { h with channels := fun i => Iff.rfl }
  all_goals exact h

end Bt
