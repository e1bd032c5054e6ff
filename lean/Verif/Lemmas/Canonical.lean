import Verif.Lemmas.Exec
import Verif.Spec.CommandStream

/-! # Lemmas for wire equality of commands -/

namespace Bt

open Spec

variable {VS : Type}

theorem le_inj {n a b : Nat} (ha : a < 256 ^ n) (hb : b < 256 ^ n) (h : le n a = le n b) : a = b := by
  have := congrArg leNat h
  rw [← leBytes_eq_le, ← leBytes_eq_le, leNat_leBytes, leNat_leBytes, Nat.mod_eq_of_lt ha,
    Nat.mod_eq_of_lt hb] at this
  exact this

theorem duration_ext {a b : Duration} (h : a.ns = b.ns) : a = b := by
  cases a; cases b; cases h; rfl

theorem floor625_of_bytes {a b : Duration} (ha : a.ns < 65536 * (625 * us)) (hb : b.ns < 65536 * (625 * us))
    (h : le 2 (units625us a.ns) = le 2 (units625us b.ns)) : floorTo (625 * us) a = floorTo (625 * us) b := by
  have h' := le_inj (n := 2) (by simp only [units625us, us] at *; omega)
    (by simp only [units625us, us] at *; omega) h
  apply duration_ext
  simp only [floorTo]
  simp only [units625us] at h'
  rw [h']

theorem floor10ms_of_bytes {a b : Duration} (ha : a.ns ≤ 32 * sec) (hb : b.ns ≤ 32 * sec)
    (h : le 2 (units10ms a.ns) = le 2 (units10ms b.ns)) : floorTo (10 * ms) a = floorTo (10 * ms) b := by
  have h' := le_inj (n := 2) (by simp only [units10ms, ms, sec] at *; omega)
    (by simp only [units10ms, ms, sec] at *; omega) h
  apply duration_ext
  simp only [floorTo]
  simp only [units10ms] at h'
  rw [h']

theorem floorInterval_of_bytes {a b : Duration} (ha : a.ns ≤ 4 * sec) (hb : b.ns ≤ 4 * sec)
    (h : le 2 (writtenInterval a.ns) = le 2 (writtenInterval b.ns)) : floorInterval a = floorInterval b := by
  have h' := le_inj (n := 2) (by simp only [writtenInterval, ms, sec] at *; omega)
    (by simp only [writtenInterval, ms, sec] at *; omega) h
  apply duration_ext
  simp only [floorInterval]
  rw [h']

theorem BuiltScanWindow.bounds {x : ScanWindow} (h : BuiltScanWindow x) :
    x.intervalWidth.ns < 65536 * (625 * us) ∧ x.windowWidth.ns < 65536 * (625 * us) := by
  obtain ⟨i, w, h⟩ := h
  obtain ⟨rfl, rfl, h1, h2, h3⟩ := (C33_accept_iff i w x).mp h
  simp only [ScanWindow.interval, ScanWindow.window, us, ms] at *
  omega

theorem BuiltLength.bounds {x : ExpectedConnectionLength} (h : BuiltLength x) :
    x.min.ns < 65536 * (625 * us) ∧ x.max.ns < 65536 * (625 * us) := by
  obtain ⟨lo, hi, h⟩ := h
  obtain ⟨rfl, h1, h2⟩ := ((C36_accept_iff lo hi).1 x).mp h
  simp only [us] at *
  omega

theorem floorWindow_of_bytes {x y : ScanWindow} (hx : BuiltScanWindow x) (hy : BuiltScanWindow y)
    (h : scanWindowBytes x = scanWindowBytes y) : floorWindow x = floorWindow y := by
  obtain ⟨h1, h2⟩ := List.append_inj h (by simp)
  unfold floorWindow
  rw [floor625_of_bytes hx.bounds.1 hy.bounds.1 h1, floor625_of_bytes hx.bounds.2 hy.bounds.2 h2]

theorem floorLength_of_bytes {x y : ExpectedConnectionLength} (hx : BuiltLength x) (hy : BuiltLength y)
    (h : connLengthBytes x = connLengthBytes y) : floorLength x = floorLength y := by
  obtain ⟨h1, h2⟩ := List.append_inj h (by simp)
  unfold floorLength
  rw [floor625_of_bytes hx.bounds.1 hy.bounds.1 h1, floor625_of_bytes hx.bounds.2 hy.bounds.2 h2]

theorem floorConn_of_bytes {x y : ConnectionInterval} (hx : Built x) (hy : Built y)
    (h : connIntervalBytes x = connIntervalBytes y) : floorConn x = floorConn y := by
  have bx := (built_iff x).mp hx
  have by' := (built_iff y).mp hy
  obtain ⟨h1, h4⟩ := List.append_inj h (by simp)
  obtain ⟨h1, h3⟩ := List.append_inj h1 (by simp)
  obtain ⟨h1, h2⟩ := List.append_inj h1 (by simp)
  unfold floorConn
  rw [floorInterval_of_bytes (Nat.le_trans bx.order bx.maxBound) (Nat.le_trans by'.order by'.maxBound) h1,
    floorInterval_of_bytes bx.maxBound by'.maxBound h2, le16_inj h3,
    floor10ms_of_bytes bx.timeoutHigh by'.timeoutHigh h4]

theorem advTypeCode_inj {a b : AdvertisingType} (h : advTypeCode a = advTypeCode b) : a = b := by
  revert h
  cases a <;> cases b <;> simp [advTypeCode]

theorem floorAdv_of_bytes {c : Cfg} {x y : AdvertisingInterval} (hx : BuiltAdv c x) (hy : BuiltAdv c y)
    (h : advIntervalBytes x = advIntervalBytes y) : floorAdv x = floorAdv y := by
  obtain ⟨-, x1, x2⟩ := hx.bounds
  obtain ⟨-, y1, y2⟩ := hy.bounds
  unfold advIntervalBytes at h
  obtain ⟨h1, h2⟩ := List.append_inj' h (by simp)
  have ht : x.advertisingType = y.advertisingType := advTypeCode_inj (by simpa using h2)
  unfold floorAdv
  rw [← ht] at h1 ⊢
  by_cases hh : x.advertisingType = .connectableDirectedHighDutyCycle
  · rw [if_pos hh, if_pos hh]
  · rw [if_neg hh, if_neg hh] at h1
    rw [if_neg hh, if_neg hh]
    obtain ⟨h3, h4⟩ := List.append_inj h1 (by simp)
    rw [floor625_of_bytes (by simp only [us, ms] at *; omega) (by simp only [us, ms] at *; omega) h3,
      floor625_of_bytes (by simp only [us, ms] at *; omega) (by simp only [us, ms] at *; omega) h4]

/-! ## Canonical commands are written alike -/

theorem units_floor625 (d : Duration) : units625us (floorTo (625 * us) d).ns = units625us d.ns := by
  simp only [units625us, floorTo]
  exact Nat.mul_div_cancel _ (by decide)

theorem units_floor10 (d : Duration) : units10ms (floorTo (10 * ms) d).ns = units10ms d.ns := by
  simp only [units10ms, floorTo]
  exact Nat.mul_div_cancel _ (by decide)

theorem written_floor (d : Duration) : writtenInterval (floorInterval d).ns = writtenInterval d.ns := by
  simp only [floorInterval]
  generalize writtenInterval d.ns = n
  simp only [writtenInterval]
  rw [Nat.mul_div_cancel _ (by decide)]
  omega

theorem scanWindowBytes_floor (x : ScanWindow) : scanWindowBytes (floorWindow x) = scanWindowBytes x := by
  simp only [scanWindowBytes, floorWindow, units_floor625]

theorem connLengthBytes_floor (x : ExpectedConnectionLength) :
    connLengthBytes (floorLength x) = connLengthBytes x := by
  simp only [connLengthBytes, floorLength, units_floor625]

theorem connIntervalBytes_floor (x : ConnectionInterval) :
    connIntervalBytes (floorConn x) = connIntervalBytes x := by
  simp only [connIntervalBytes, floorConn, units_floor10, written_floor]

theorem advIntervalBytes_floor (x : AdvertisingInterval) :
    advIntervalBytes (floorAdv x) = advIntervalBytes x := by
  unfold floorAdv
  by_cases hh : x.advertisingType = .connectableDirectedHighDutyCycle
  · rw [if_pos hh]
    simp only [advIntervalBytes, if_pos hh]
  · rw [if_neg hh]
    simp only [advIntervalBytes, if_neg hh, units_floor625]

theorem canonical_wire (cmd : Command VS) :
    cmdOpcode (canonical cmd) = cmdOpcode cmd ∧ cmdParams (canonical cmd) = cmdParams cmd := by
  cases cmd with
  | leSetAdvertisingParameters p => simp [canonical, cmdOpcode, cmdParams, advIntervalBytes_floor]
  | leSetScanParameters p => simp [canonical, cmdOpcode, cmdParams, scanWindowBytes_floor]
  | leCreateConnection p =>
    refine ⟨rfl, ?_⟩
    simp only [canonical, cmdParams, scanWindowBytes_floor, connIntervalBytes_floor, connLengthBytes_floor]
    cases p.initiatorFilterPolicy <;> simp
  | leConnectionUpdate p =>
    simp [canonical, cmdOpcode, cmdParams, connIntervalBytes_floor, connLengthBytes_floor]
  | _ => exact ⟨rfl, rfl⟩

end Bt
