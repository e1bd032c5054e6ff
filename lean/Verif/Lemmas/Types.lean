import Verif.Spec.Types
import Verif.Lemmas.Bytes

/-! # Lemmas on the value types -/

namespace Bt

open Spec

variable {ε : Type}

theorem lt'_iff (a b : Duration) : a.lt' b = true ↔ a.ns < b.ns := by simp [Duration.lt']

theorem le'_iff (a b : Duration) : a.le' b = true ↔ a.ns ≤ b.ns := by simp [Duration.le']

theorem build_some (imin imax : Duration) (lat : UInt16) (to : Duration) :
    ConnectionIntervalBuilder.build ⟨some (imin, imax), some lat, some to⟩ =
      if imin.ns < 7500 * us then .err (.intervalTooShort imin)
      else if 4 * sec < imax.ns then .err (.intervalTooLong imax)
      else if imax.ns < imin.ns then .err (.intervalInverted imin imax)
      else if 499 < lat.toNat then .err (.badConnectionLatency lat)
      else if h : minTimeout imax.ns lat.toNat < durationLimit then
        if 32 * sec ≤ minTimeout imax.ns lat.toNat then
          .err (.impossibleSupervisionTimeout ⟨minTimeout imax.ns lat.toNat, h⟩)
        else if to.ns ≤ Max.max (minTimeout imax.ns lat.toNat) (100 * ms) then
          .err (.supervisionTimeoutTooShort to
            (Duration.max ⟨minTimeout imax.ns lat.toNat, h⟩ (Duration.millis 100)))
        else if 32 * sec < to.ns then .err (.supervisionTimeoutTooLong to)
        else .ok ⟨imin, imax, lat, to⟩
      else .panic := by
  unfold ConnectionIntervalBuilder.build
  simp only [lt'_iff, le'_iff]
  rw [show (Duration.micros 7500).ns = 7500 * us from rfl, show (Duration.secs 4).ns = 4 * sec from rfl,
    show (Duration.secs 32).ns = 32 * sec from rfl]
  by_cases h1 : imin.ns < 7500 * us
  · rw [if_pos h1, if_pos h1]
  rw [if_neg h1, if_neg h1]
  by_cases h2 : 4 * sec < imax.ns
  · rw [if_pos h2, if_pos h2]
  rw [if_neg h2, if_neg h2]
  by_cases h3 : imax.ns < imin.ns
  · rw [if_pos h3, if_pos h3]
  rw [if_neg h3, if_neg h3]
  simp only [us, sec] at h1 h2
  have hl : (lat > 0x1F3) ↔ 499 < lat.toNat := by
    rw [gt_iff_lt, UInt16.lt_iff_toNat_lt]; rfl
  by_cases h4 : 499 < lat.toNat
  · rw [if_pos (hl.mpr h4), if_pos h4]
  rw [if_neg (fun h => h4 (hl.mp h)), if_neg h4]
  have hk : addU32 (ε := ConnectionIntervalError) 1 lat.toNat = .ok (1 + lat.toNat) := by
    rw [addU32, if_pos (by omega)]
  have hp : imax.ns * (1 + lat.toNat) ≤ 4000000000 * 500 :=
    Nat.mul_le_mul (by omega) (by omega)
  have ht : imax.mul (ε := ConnectionIntervalError) (1 + lat.toNat) =
      .ok ⟨imax.ns * (1 + lat.toNat), by unfold durationLimit; omega⟩ := by
    rw [Duration.mul, dif_pos (by unfold durationLimit; omega)]
  have hm : minTimeout imax.ns lat.toNat = imax.ns * (1 + lat.toNat) * 2 := by
    rw [minTimeout, Nat.mul_comm (1 + lat.toNat)]
  rw [hk]
  simp only [Res.bind_ok]
  rw [ht]
  simp only [Res.bind_ok]
  have hc : (⟨imax.ns * (1 + lat.toNat), by unfold durationLimit; omega⟩ : Duration).mul
      (ε := ConnectionIntervalError) 2 = .ok ⟨minTimeout imax.ns lat.toNat, by unfold durationLimit; omega⟩ := by
    rw [Duration.mul, dif_pos (by unfold durationLimit; simp only; omega)]
    simp only [hm]
  rw [hc, dif_pos (by unfold durationLimit; omega)]
  simp only [Res.bind_ok]
  have hmax : ∀ h, (Duration.max ⟨minTimeout imax.ns lat.toNat, h⟩ (Duration.millis 100)).ns =
      Max.max (minTimeout imax.ns lat.toNat) (100 * ms) := by
    intro h
    unfold Duration.max Duration.millis
    simp only [ms]
    split <;> simp only [Nat.max_def] <;> split <;> omega
  rw [hmax]

theorem intervalAsU16_eq (d : Duration) (h : d.ns ≤ 4 * sec) :
    ConnectionInterval.intervalAsU16 (ε := ε) d = .ok (UInt16.ofNat (writtenInterval d.ns)) := by
  simp only [sec] at h
  have h1 : d.asSecs ≤ 4 := by unfold Duration.asSecs; omega
  have h2 : d.subsecMillis < 1000 := by unfold Duration.subsecMillis; omega
  unfold ConnectionInterval.intervalAsU16
  rw [mulU64, if_pos (by omega)]
  simp only [Res.bind_ok]
  rw [mulU32, if_pos (by omega)]
  simp only [Res.bind_ok]
  rw [show asU32 (800 * d.asSecs) = 800 * d.asSecs from Nat.mod_eq_of_lt (by omega)]
  rw [addU32, if_pos (by omega)]
  simp only [Res.bind_ok]
  congr 2
  unfold Duration.asSecs Duration.subsecMillis writtenInterval ms
  omega

theorem timeoutAsU16_eq (d : Duration) (h : d.ns ≤ 32 * sec) :
    ConnectionInterval.timeoutAsU16 (ε := ε) d = .ok (UInt16.ofNat (units10ms d.ns)) := by
  simp only [sec] at h
  have h1 : d.asSecs ≤ 32 := by unfold Duration.asSecs; omega
  have h2 : d.subsecMillis < 1000 := by unfold Duration.subsecMillis; omega
  unfold ConnectionInterval.timeoutAsU16
  rw [mulU64, if_pos (by omega)]
  simp only [Res.bind_ok]
  rw [show asU32 (100 * d.asSecs) = 100 * d.asSecs from Nat.mod_eq_of_lt (by omega)]
  rw [addU32, if_pos (by omega)]
  simp only [Res.bind_ok]
  congr 2
  unfold Duration.asSecs Duration.subsecMillis units10ms ms
  omega

theorem ecl_durationAsU16_eq (d : Duration) (h : d.ns < 65536 * (625 * us)) :
    ExpectedConnectionLength.durationAsU16 (ε := ε) d = .ok (UInt16.ofNat (units625us d.ns)) := by
  simp only [us] at h
  have h1 : d.asSecs ≤ 40 := by unfold Duration.asSecs; omega
  have h2 : d.subsecMicros < 1000000 := by unfold Duration.subsecMicros; omega
  unfold ExpectedConnectionLength.durationAsU16 asU32
  rw [mulU32, if_pos (by omega)]
  simp only [Res.bind_ok]
  rw [addU32, if_pos (by omega)]
  simp only [Res.bind_ok]
  congr 2
  unfold Duration.asSecs Duration.subsecMicros units625us us
  omega

theorem sw_durationAsU16_eq (d : Duration) (h : d.ns < 65536 * (625 * us)) :
    ScanWindow.durationAsU16 (ε := ε) d = .ok (UInt16.ofNat (units625us d.ns)) :=
  ecl_durationAsU16_eq d h

theorem adv_durationAsU16_eq (d : Duration) (h : d.ns < 65536 * (625 * us)) :
    AdvertisingInterval.durationAsU16 (ε := ε) d = .ok (UInt16.ofNat (units625us d.ns)) :=
  ecl_durationAsU16_eq d h

/-- Two consecutive 16-bit fields written into a buffer. -/
theorem write_two (bytes : List UInt8) (a b : UInt16) (h : 4 ≤ bytes.length) :
    (do
      let bytes ← withRange (ε := ε) bytes 0 2 (fun s => writeU16 s a)
      withRange bytes 2 4 (fun s => writeU16 s b)) = .ok (le16 a ++ le16 b ++ bytes.drop 4) := by
  rw [withRange_writeU16 _ (by omega) (by omega)]
  simp only [Res.bind_ok]
  rw [withRange_writeU16 _ (by omega) (by simp; omega)]
  simp [List.drop_append]

theorem copyInterval_eq (x : ConnectionInterval) (bytes : List UInt8) (h : 8 ≤ bytes.length)
    (h1 : x.intervalMin.ns ≤ 4 * sec) (h2 : x.intervalMax.ns ≤ 4 * sec)
    (h3 : x.supervisionTimeout.ns ≤ 32 * sec) :
    x.copyIntoSlice (ε := ε) bytes =
      .ok (le16 (UInt16.ofNat (writtenInterval x.intervalMin.ns)) ++
        le16 (UInt16.ofNat (writtenInterval x.intervalMax.ns)) ++ le16 x.connLatency ++
        le16 (UInt16.ofNat (units10ms x.supervisionTimeout.ns)) ++ bytes.drop 8) := by
  unfold ConnectionInterval.copyIntoSlice
  rw [decide_eq_true h, intervalAsU16_eq _ h1, intervalAsU16_eq _ h2, timeoutAsU16_eq _ h3]
  simp only [Res.assert_true, Res.bind_ok]
  rw [withRange_writeU16 _ (by omega) (by omega)]
  simp only [Res.bind_ok]
  rw [withRange_writeU16 _ (by omega) (by simp; omega)]
  simp only [Res.bind_ok]
  rw [withRange_writeU16 _ (by omega) (by simp; omega)]
  simp only [Res.bind_ok]
  rw [withRange_writeU16 _ (by omega) (by simp; omega)]
  simp [List.take_append, List.drop_append, List.take_of_length_le, List.drop_of_length_le]

theorem copyScanWindow_eq (x : ScanWindow) (bytes : List UInt8) (h : 4 ≤ bytes.length)
    (h1 : x.intervalWidth.ns < 65536 * (625 * us)) (h2 : x.windowWidth.ns < 65536 * (625 * us)) :
    x.copyIntoSlice (ε := ε) bytes =
      .ok (le16 (UInt16.ofNat (units625us x.intervalWidth.ns)) ++
        le16 (UInt16.ofNat (units625us x.windowWidth.ns)) ++ bytes.drop 4) := by
  unfold ScanWindow.copyIntoSlice
  rw [decide_eq_true h, sw_durationAsU16_eq _ h1, sw_durationAsU16_eq _ h2]
  simp only [Res.assert_true, Res.bind_ok]
  exact write_two bytes _ _ h

theorem copyConnectionLength_eq (x : ExpectedConnectionLength) (bytes : List UInt8)
    (h : 4 ≤ bytes.length)
    (h1 : x.min.ns < 65536 * (625 * us)) (h2 : x.max.ns < 65536 * (625 * us)) :
    x.copyIntoSlice (ε := ε) bytes =
      .ok (le16 (UInt16.ofNat (units625us x.min.ns)) ++
        le16 (UInt16.ofNat (units625us x.max.ns)) ++ bytes.drop 4) := by
  unfold ExpectedConnectionLength.copyIntoSlice
  rw [decide_eq_true h, ecl_durationAsU16_eq _ h1, ecl_durationAsU16_eq _ h2]
  simp only [Res.assert_true, Res.bind_ok]
  exact write_two bytes _ _ h

theorem copyAdvInterval_eq (x : AdvertisingInterval) (bytes : List UInt8) (h : 5 ≤ bytes.length)
    (h1 : x.min.ns < 65536 * (625 * us)) (h2 : x.max.ns < 65536 * (625 * us)) :
    x.copyIntoSlice (ε := ε) bytes =
      .ok ((if x.advertisingType = .connectableDirectedHighDutyCycle then [0, 0, 0, 0]
        else le16 (UInt16.ofNat (units625us x.min.ns)) ++ le16 (UInt16.ofNat (units625us x.max.ns))) ++
        x.advertisingType.toU8 :: bytes.drop 5) := by
  unfold AdvertisingInterval.copyIntoSlice
  by_cases ht : x.advertisingType = .connectableDirectedHighDutyCycle
  · rw [if_pos ht, if_pos ht, copyRange_of_le (by omega) (by omega) rfl]
    simp only [Res.bind_ok]
    rw [setByte_of_lt _ (by simp; omega)]
    simp
  · rw [if_neg ht, if_neg ht, adv_durationAsU16_eq _ h1, adv_durationAsU16_eq _ h2]
    simp only [Res.bind_ok]
    rw [withRange_writeU16 _ (by omega) (by omega)]
    simp only [Res.bind_ok]
    rw [withRange_writeU16 _ (by omega) (by simp; omega)]
    simp only [Res.bind_ok]
    rw [setByte_of_lt _ (by simp; omega)]
    simp [List.take_append, List.drop_append, List.take_of_length_le, List.drop_of_length_le]

theorem legalRaw_iff (a b l t : Nat) :
    LegalConnection (1250 * us * a) (1250 * us * b) l (10 * ms * t) ↔ LegalRaw a b l t := by
  have hp : minTimeout (1250 * us * b) l = 2500000 * ((1 + l) * b) := by
    simp only [minTimeout, us]
    rw [Nat.mul_left_comm]
    omega
  constructor
  · rintro ⟨h1, h2, h3, h4, h5, h6, h7, h8⟩
    rw [hp] at h5 h6
    simp only [us, ms, sec] at *
    refine ⟨?_, ?_, ?_, ?_, ?_, ?_, ?_, ?_⟩ <;> omega
  · rintro ⟨h1, h2, h3, h4, h5, h6, h7, h8⟩
    refine ⟨?_, ?_, ?_, ?_, ?_, ?_, ?_, ?_⟩ <;> (try rw [hp]) <;> simp only [us, ms, sec] at * <;> omega

theorem readU16_append (v : UInt16) (rest : List UInt8) :
    readU16 (ε := ε) (le16 v ++ rest) = .ok v := by
  rw [readU16, if_pos (by simp), List.take_left' (by simp), ofNat_leNat_le16]

/-- Reading a 16-bit field at a known offset. -/
theorem readU16_slice (pre : List UInt8) (v : UInt16) (post : List UInt8) (n m : Nat)
    (hn : n = pre.length) (hm : m = n + 2) :
    slice (ε := ε) (pre ++ le16 v ++ post) n m = .ok (le16 v) := by
  subst hn hm
  rw [slice_of_le (by omega) (by simp)]
  congr 1
  rw [List.take_append_of_le_length (by simp), List.take_of_length_le (by simp), List.drop_left' rfl]

theorem mul_micros (k : UInt16) :
    (Duration.micros 1250).mul (ε := ε) k.toNat =
      .ok ⟨1250 * us * k.toNat, by have := k.toNat_lt; simp only [us, durationLimit]; omega⟩ := by
  have := k.toNat_lt
  rw [Duration.mul, dif_pos (by simp only [Duration.micros, durationLimit]; omega)]
  rfl

theorem mul_millis (k : UInt16) :
    (Duration.millis 10).mul (ε := ε) k.toNat =
      .ok ⟨10 * ms * k.toNat, by have := k.toNat_lt; simp only [ms, durationLimit]; omega⟩ := by
  have := k.toNat_lt
  rw [Duration.mul, dif_pos (by simp only [Duration.millis, durationLimit]; omega)]
  rfl

/-- An interval of `k` units of 1.25 ms. -/
def durUnits (k : UInt16) : Duration :=
  ⟨1250 * us * k.toNat, by have := k.toNat_lt; simp only [us, durationLimit]; omega⟩

/-- A timeout of `k` units of 10 ms. -/
def durTimeout (k : UInt16) : Duration :=
  ⟨10 * ms * k.toNat, by have := k.toNat_lt; simp only [ms, durationLimit]; omega⟩

theorem fromBytes_eq (a b l t : UInt16) (rest : List UInt8) :
    ConnectionInterval.fromBytes (le16 a ++ le16 b ++ le16 l ++ le16 t ++ rest) =
      ConnectionIntervalBuilder.build
        ⟨some (durUnits a, durUnits b), some l, some (durTimeout t)⟩ := by
  unfold ConnectionInterval.fromBytes
  rw [decide_eq_true (by simp; omega)]
  simp only [Res.assert_true, Res.bind_ok]
  have e1 := readU16_slice (ε := ConnectionIntervalError) [] a (le16 b ++ le16 l ++ le16 t ++ rest) 0 2 rfl rfl
  have e2 := readU16_slice (ε := ConnectionIntervalError) (le16 a) b (le16 l ++ le16 t ++ rest) 2 4 rfl rfl
  have e3 := readU16_slice (ε := ConnectionIntervalError) (le16 a ++ le16 b) l (le16 t ++ rest) 4 6 rfl rfl
  have e4 := readU16_slice (ε := ConnectionIntervalError) (le16 a ++ le16 b ++ le16 l) t rest 6 8 rfl rfl
  simp only [List.append_assoc, List.nil_append] at e1 e2 e3 e4 ⊢
  rw [e1, e2, e3, e4]
  have r (v : UInt16) : readU16 (ε := ConnectionIntervalError) (le16 v) = .ok v := by
    simpa using readU16_append v []
  simp only [Res.bind_ok, r, mul_micros, mul_millis]
  rfl

theorem fixedFromBytes_eq (a l t : UInt16) (rest : List UInt8) :
    FixedConnectionInterval.fromBytes (le16 a ++ le16 l ++ le16 t ++ rest) =
      (ConnectionIntervalBuilder.build
        ⟨some (durUnits a, durUnits a), some l, some (durTimeout t)⟩).mapOk
        (fun _ => ⟨durUnits a, l, durTimeout t⟩) := by
  unfold FixedConnectionInterval.fromBytes
  rw [decide_eq_true (by simp; omega)]
  simp only [Res.assert_true, Res.bind_ok]
  have e1 := readU16_slice (ε := ConnectionIntervalError) [] a (le16 l ++ le16 t ++ rest) 0 2 rfl rfl
  have e2 := readU16_slice (ε := ConnectionIntervalError) (le16 a) l (le16 t ++ rest) 2 4 rfl rfl
  have e3 := readU16_slice (ε := ConnectionIntervalError) (le16 a ++ le16 l) t rest 4 6 rfl rfl
  simp only [List.append_assoc, List.nil_append] at e1 e2 e3 ⊢
  rw [e1, e2, e3]
  have r (v : UInt16) : readU16 (ε := ConnectionIntervalError) (le16 v) = .ok v := by
    simpa using readU16_append v []
  simp only [Res.bind_ok, r, mul_micros, mul_millis]
  change (ConnectionIntervalBuilder.build
    ⟨some (durUnits a, durUnits a), some l, some (durTimeout t)⟩ >>= fun _ => _) = _
  cases ConnectionIntervalBuilder.build
    ⟨some (durUnits a, durUnits a), some l, some (durTimeout t)⟩ <;> rfl

/-- A byte string of at least two bytes begins with a 16-bit field. -/
theorem exists_le16 (bs : List UInt8) (h : 2 ≤ bs.length) :
    ∃ v rest, bs = le16 v ++ rest ∧ rest.length = bs.length - 2 := by
  match bs, h with
  | a :: b :: rest, _ =>
    refine ⟨UInt16.ofNat (leNat [a, b]), rest, ?_, by simp⟩
    rw [le16_ofNat_leNat _ rfl]
    rfl

end Bt
