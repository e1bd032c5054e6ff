import Verif.Lemmas.Types
import Verif.Spec.Constructible

/-! # C33-C36: scan windows, advertising intervals, expected connection lengths -/

namespace Bt

open Spec

/-! ## C33 -/

theorem validate_eq (d : Duration) :
    ScanWindow.validate d = if d.ns < 2500 * us then .err (.tooShort d)
      else if 10240 * ms < d.ns then .err (.tooLong d) else .ok d := by
  unfold ScanWindow.validate
  have h1 : (d.lt' (Duration.micros 2500) = true) = (d.ns < 2500 * us) := by
    rw [lt'_iff]; rfl
  have h2 : ((Duration.millis 10240).lt' d = true) = (10240 * ms < d.ns) := by
    rw [lt'_iff]; rfl
  by_cases c1 : d.ns < 2500 * us
  · rw [if_pos c1, if_pos (by rw [h1]; exact c1)]
  · rw [if_neg c1, if_neg (by rw [h1]; exact c1)]
    by_cases c2 : 10240 * ms < d.ns
    · rw [if_pos c2, if_pos (by rw [h2]; exact c2)]
    · rw [if_neg c2, if_neg (by rw [h2]; exact c2)]

theorem scanWindow_eq (i w : Duration) :
    scanWindow i w = if i.ns < 2500 * us then .err (.tooShort i)
      else if 10240 * ms < i.ns then .err (.tooLong i)
      else if i.ns < w.ns then .err (.inverted i w)
      else if w.ns < 2500 * us then .err (.tooShort w) else .ok ⟨i, w⟩ := by
  unfold scanWindow ScanWindow.startEvery
  rw [validate_eq]
  by_cases c1 : i.ns < 2500 * us
  · rw [if_pos c1, if_pos c1]; rfl
  rw [if_neg c1, if_neg c1]
  by_cases c2 : 10240 * ms < i.ns
  · rw [if_pos c2, if_pos c2]; rfl
  rw [if_neg c2, if_neg c2]
  simp only [Res.bind_ok]
  unfold ScanWindowBuilder.openFor
  simp only
  by_cases c3 : i.ns < w.ns
  · rw [if_pos c3, if_pos ((lt'_iff _ _).mpr c3)]
  rw [if_neg c3, if_neg (by rw [lt'_iff]; exact c3), validate_eq]
  by_cases c4 : w.ns < 2500 * us
  · rw [if_pos c4, if_pos c4]; rfl
  · rw [if_neg c4, if_neg c4, if_neg (by omega)]; rfl

/-- **C33.** A scan window is accepted exactly when 2.5 ms ≤ window ≤ interval ≤ 10.24 s, and holds the
durations given. -/
theorem C33_accept_iff (i w : Duration) (r : ScanWindow) :
    scanWindow i w = .ok r ↔
      r.interval = i ∧ r.window = w ∧ 2500 * us ≤ w.ns ∧ w.ns ≤ i.ns ∧ i.ns ≤ 10240 * ms := by
  rw [scanWindow_eq]
  constructor
  · intro h
    (repeat' split at h) <;> try (simp only [reduceCtorEq] at h; done)
    cases h
    refine ⟨rfl, rfl, ?_, ?_, ?_⟩ <;> omega
  · rintro ⟨rfl, rfl, h1, h2, h3⟩
    have : 2500 * us < 10240 * ms := by decide
    rw [if_neg (by omega), if_neg (by omega), if_neg (by omega), if_neg (by omega)]
    rfl

example : scanWindow (Duration.millis 10) (Duration.micros 2500) =
    .ok ⟨Duration.millis 10, Duration.micros 2500⟩ := by decide +kernel

/-- **C33.** The error is the documented one: an interval out of range is reported first, then a window
longer than the interval, then a window that is too short. Construction never panics. -/
theorem C33_errors (i w : Duration) :
    (∀ d, scanWindow i w = .err (.tooShort d) ↔
      (i.ns < 2500 * us ∧ d = i) ∨
      (2500 * us ≤ i.ns ∧ i.ns ≤ 10240 * ms ∧ w.ns < 2500 * us ∧ d = w)) ∧
    (∀ d, scanWindow i w = .err (.tooLong d) ↔ 10240 * ms < i.ns ∧ d = i) ∧
    (∀ a b, scanWindow i w = .err (.inverted a b) ↔
      2500 * us ≤ i.ns ∧ i.ns ≤ 10240 * ms ∧ i.ns < w.ns ∧ a = i ∧ b = w) ∧
    scanWindow i w ≠ .panic := by
  rw [scanWindow_eq]
  have : 2500 * us < 10240 * ms := by decide
  refine ⟨?_, ?_, ?_, ?_⟩
  · intro d
    constructor
    · intro h
      (repeat' split at h) <;> try (simp only [reduceCtorEq, Res.err.injEq] at h; done)
      · cases h; exact Or.inl ⟨by assumption, rfl⟩
      · cases h; exact Or.inr ⟨by omega, by omega, by omega, rfl⟩
    · rintro (⟨h, rfl⟩ | ⟨h1, h2, h3, rfl⟩)
      · rw [if_pos h]
      · rw [if_neg (by omega), if_neg (by omega), if_neg (by omega), if_pos h3]
  · intro d
    constructor
    · intro h
      (repeat' split at h) <;> try (simp only [reduceCtorEq, Res.err.injEq] at h; done)
      cases h; exact ⟨by assumption, rfl⟩
    · rintro ⟨h, rfl⟩
      rw [if_neg (by omega), if_pos h]
  · intro a b
    constructor
    · intro h
      (repeat' split at h) <;> try (simp only [reduceCtorEq, Res.err.injEq] at h; done)
      cases h; exact ⟨by omega, by omega, by omega, rfl, rfl⟩
    · rintro ⟨h1, h2, h3, rfl, rfl⟩
      rw [if_neg (by omega), if_neg (by omega), if_pos h3]
  · (repeat' split) <;> simp

example : scanWindow (Duration.millis 5) (Duration.millis 10) =
    .err (.inverted (Duration.millis 5) (Duration.millis 10)) := by decide +kernel

/-- **C33.** An accepted scan window serialises to two little-endian values in units of 0.625 ms, the
exact floors of the durations, legal for the controller; the rest of the buffer is untouched. -/
theorem C33_serialised (i w : Duration) (r : ScanWindow) (h : scanWindow i w = .ok r)
    (buf : List UInt8) (hb : 4 ≤ buf.length) :
    ∃ a b : UInt16, r.copyIntoSlice (ε := Empty) buf = .ok (le16 a ++ le16 b ++ buf.drop 4) ∧
      a.toNat = i.ns / (625 * us) ∧ b.toNat = w.ns / (625 * us) ∧
      4 ≤ b.toNat ∧ b.toNat ≤ a.toNat ∧ a.toNat ≤ 16384 := by
  obtain ⟨rfl, rfl, h1, h2, h3⟩ := (C33_accept_iff i w r).mp h
  simp only [ScanWindow.interval, ScanWindow.window] at *
  refine ⟨_, _, copyScanWindow_eq r buf hb ?_ ?_, ?_, ?_, ?_, ?_, ?_⟩ <;>
    (try simp only [UInt16.toNat_ofNat', units625us]) <;> simp only [us, ms] at * <;> omega

example : (⟨Duration.millis 10240, Duration.micros 2500⟩ : ScanWindow).copyIntoSlice (ε := Empty)
    [9, 9, 9, 9, 9] = .ok [0, 0x40, 4, 0, 9] := by decide +kernel

/-! ## C34, C35 -/

theorem advWithRange_eq (c : Cfg) (t : AdvertisingType) (lo hi : Duration) :
    (AdvertisingInterval.forType t).withRange c lo hi =
      if lo.ns < advFloor c t then .err (.tooShort lo)
      else if 10240 * ms < hi.ns then .err (.tooLong hi)
      else if hi.ns < lo.ns then .err (.inverted lo hi) else .ok ⟨lo, hi, t⟩ := by
  unfold AdvertisingIntervalBuilder.withRange AdvertisingInterval.forType
  have h1 : (lo.lt' (Duration.millis 20) = true) = (lo.ns < 20 * ms) := by rw [lt'_iff]; rfl
  have h2 : ((!c.v50 && decide (t = .scannableUndirected) && lo.lt' (Duration.millis 100)) = true) =
      ((c.v50 = false ∧ t = .scannableUndirected) ∧ lo.ns < 100 * ms) := by
    simp only [Bool.and_eq_true, Bool.not_eq_true', decide_eq_true_eq, lt'_iff]; rfl
  have h3 : ((Duration.millis 10240).lt' hi = true) = (10240 * ms < hi.ns) := by rw [lt'_iff]; rfl
  have h4 : (hi.lt' lo = true) = (hi.ns < lo.ns) := by rw [lt'_iff]
  have hm : 20 * ms < 100 * ms := by decide
  by_cases c1 : lo.ns < advFloor c t
  · rw [if_pos c1]
    unfold advFloor at c1
    by_cases c2 : lo.ns < 20 * ms
    · rw [if_pos (by rw [h1]; exact c2)]
    · rw [if_neg (by rw [h1]; exact c2)]
      by_cases c3 : c.v50 = false ∧ t = .scannableUndirected
      · rw [if_pos c3] at c1
        rw [if_pos (by rw [h2]; exact ⟨c3, c1⟩)]
      · rw [if_neg c3] at c1; exact absurd c1 c2
  · rw [if_neg c1]
    unfold advFloor at c1
    have c2 : ¬ lo.ns < 20 * ms := by split at c1 <;> omega
    have c3 : ¬ ((c.v50 = false ∧ t = .scannableUndirected) ∧ lo.ns < 100 * ms) := by
      rintro ⟨h, h'⟩; rw [if_pos h] at c1; exact c1 h'
    rw [if_neg (by rw [h1]; exact c2), if_neg (by rw [h2]; exact c3)]
    by_cases c4 : 10240 * ms < hi.ns
    · rw [if_pos c4, if_pos (by rw [h3]; exact c4)]
    · rw [if_neg c4, if_neg (by rw [h3]; exact c4)]
      by_cases c5 : hi.ns < lo.ns
      · rw [if_pos c5, if_pos (by rw [h4]; exact c5)]
      · rw [if_neg c5, if_neg (by rw [h4]; exact c5)]

/-- **C34.** A range is accepted exactly when min ≤ max ≤ 10.24 s and min is at least 20 ms (100 ms for
scannable undirected advertising before Bluetooth 5.0); the result holds the values given. -/
theorem C34_accept_iff (c : Cfg) (t : AdvertisingType) (lo hi : Duration) (r : AdvertisingInterval) :
    (AdvertisingInterval.forType t).withRange c lo hi = .ok r ↔
      r = ⟨lo, hi, t⟩ ∧
      (if c.v50 = false ∧ t = .scannableUndirected then 100 * ms else 20 * ms) ≤ lo.ns ∧
      lo.ns ≤ hi.ns ∧ hi.ns ≤ 10240 * ms := by
  rw [advWithRange_eq]
  change _ ↔ _ ∧ advFloor c t ≤ _ ∧ _
  constructor
  · intro h
    (repeat' split at h) <;> try (simp only [reduceCtorEq] at h; done)
    cases h
    refine ⟨rfl, ?_, ?_, ?_⟩ <;> omega
  · rintro ⟨rfl, h1, h2, h3⟩
    rw [if_neg (by omega), if_neg (by omega), if_neg (by omega)]

example : (AdvertisingInterval.forType .scannableUndirected).withRange ⟨false, true⟩
    (Duration.millis 20) (Duration.millis 100) =
    .ok ⟨Duration.millis 20, Duration.millis 100, .scannableUndirected⟩ := by decide +kernel

/-- **C34.** The error is the documented one, in the documented order; `with_range` never panics. -/
theorem C34_errors (c : Cfg) (t : AdvertisingType) (lo hi : Duration) :
    (∀ d, (AdvertisingInterval.forType t).withRange c lo hi = .err (.tooShort d) ↔
      lo.ns < advFloor c t ∧ d = lo) ∧
    (∀ d, (AdvertisingInterval.forType t).withRange c lo hi = .err (.tooLong d) ↔
      advFloor c t ≤ lo.ns ∧ 10240 * ms < hi.ns ∧ d = hi) ∧
    (∀ a b, (AdvertisingInterval.forType t).withRange c lo hi = .err (.inverted a b) ↔
      advFloor c t ≤ lo.ns ∧ hi.ns ≤ 10240 * ms ∧ hi.ns < lo.ns ∧ a = lo ∧ b = hi) ∧
    (AdvertisingInterval.forType t).withRange c lo hi ≠ .err .noRange ∧
    (AdvertisingInterval.forType t).withRange c lo hi ≠ .panic := by
  rw [advWithRange_eq]
  refine ⟨?_, ?_, ?_, ?_, ?_⟩
  · intro d
    constructor
    · intro h
      (repeat' split at h) <;> try (simp only [reduceCtorEq, Res.err.injEq] at h; done)
      cases h; exact ⟨by assumption, rfl⟩
    · rintro ⟨h, rfl⟩
      rw [if_pos h]
  · intro d
    constructor
    · intro h
      (repeat' split at h) <;> try (simp only [reduceCtorEq, Res.err.injEq] at h; done)
      cases h; exact ⟨by omega, by assumption, rfl⟩
    · rintro ⟨h, h1, rfl⟩
      rw [if_neg (by omega), if_pos h1]
  · intro a b
    constructor
    · intro h
      (repeat' split at h) <;> try (simp only [reduceCtorEq, Res.err.injEq] at h; done)
      cases h; exact ⟨by omega, by omega, by omega, rfl, rfl⟩
    · rintro ⟨h1, h2, h3, rfl, rfl⟩
      rw [if_neg (by omega), if_neg (by omega), if_pos h3]
  · (repeat' split) <;> simp
  · (repeat' split) <;> simp

example : (AdvertisingInterval.forType .scannableUndirected).withRange ⟨true, false⟩
    (Duration.millis 20) (Duration.millis 100) = .err (.tooShort (Duration.millis 20)) := by decide +kernel

/-- **C34.** `build` (no range) is accepted exactly for high duty cycle directed advertising. -/
theorem C34_build (t : AdvertisingType) :
    (AdvertisingInterval.forType t).build =
      if t = .connectableDirectedHighDutyCycle then
        .ok ⟨⟨0, by decide⟩, ⟨0, by decide⟩, .connectableDirectedHighDutyCycle⟩
      else .err .noRange := by
  cases t <;> rfl

example : (AdvertisingInterval.forType .nonConnectableUndirected).build = .err .noRange := rfl

theorem BuiltAdv.bounds {c : Cfg} {x : AdvertisingInterval} (h : BuiltAdv c x) :
    (x.advertisingType = .connectableDirectedHighDutyCycle ∨ 20 * ms ≤ x.min.ns) ∧
    x.min.ns ≤ x.max.ns ∧ x.max.ns ≤ 10240 * ms := by
  obtain ⟨t, h | ⟨lo, hi, h⟩⟩ := h
  · rw [C34_build] at h
    split at h
    · cases h
      exact ⟨Or.inl rfl, Nat.le_refl _, by decide⟩
    · cases h
  · obtain ⟨rfl, h1, h2, h3⟩ := (C34_accept_iff _ _ _ _ _).mp h
    refine ⟨Or.inr ?_, h2, h3⟩
    have hm : 20 * ms < 100 * ms := by decide
    split at h1 <;> simp only <;> omega

/-- **C34.** Every interval the API produces serialises to five bytes min, max, type with the type code of
the Bluetooth specification; the values are the exact floors in 0.625 ms units, in 32..16384 with
min ≤ max, or both zero for high duty cycle directed advertising. -/
theorem C34_serialised (c : Cfg) (x : AdvertisingInterval) (hx : BuiltAdv c x) (buf : List UInt8)
    (hb : 5 ≤ buf.length) :
    ∃ a b : UInt16, x.copyIntoSlice (ε := Empty) buf =
        .ok (le16 a ++ le16 b ++ [advTypeCode x.advertisingType] ++ buf.drop 5) ∧
      (x.advertisingType = .connectableDirectedHighDutyCycle → a = 0 ∧ b = 0) ∧
      (x.advertisingType ≠ .connectableDirectedHighDutyCycle →
        a.toNat = x.min.ns / (625 * us) ∧ b.toNat = x.max.ns / (625 * us) ∧
        32 ≤ a.toNat ∧ a.toNat ≤ b.toNat ∧ b.toNat ≤ 16384) := by
  obtain ⟨h1, h2, h3⟩ := hx.bounds
  have hc : x.advertisingType.toU8 = advTypeCode x.advertisingType := by
    cases x.advertisingType <;> rfl
  have h4 : x.max.ns < 65536 * (625 * us) := by simp only [us, ms] at *; omega
  rw [copyAdvInterval_eq x buf hb (by omega) h4, hc]
  by_cases ht : x.advertisingType = .connectableDirectedHighDutyCycle
  · rw [if_pos ht]
    refine ⟨0, 0, ?_, fun _ => ⟨rfl, rfl⟩, fun h => absurd ht h⟩
    rfl
  · rw [if_neg ht]
    refine ⟨UInt16.ofNat (units625us x.min.ns), UInt16.ofNat (units625us x.max.ns), ?_,
      fun h => absurd h ht, fun _ => ?_⟩
    · simp
    · have h1 := h1.resolve_left ht
      refine ⟨?_, ?_, ?_, ?_, ?_⟩ <;>
        simp only [UInt16.toNat_ofNat', units625us] <;> simp only [us, ms] at * <;> omega

example : BuiltAdv ⟨true, false⟩ ⟨Duration.millis 100, Duration.millis 200, .scannableUndirected⟩ :=
  ⟨.scannableUndirected, Or.inr ⟨Duration.millis 100, Duration.millis 200, by decide +kernel⟩⟩

/-- **C35, false as stated.** Before version 5.0 a non-connectable interval below 100 ms is accepted. -/
theorem C35_floor_fails :
    ¬ ∀ (c : Cfg) (x : AdvertisingInterval), BuiltAdv c x → c.v50 = false →
      (x.advertisingType = .scannableUndirected ∨ x.advertisingType = .nonConnectableUndirected) →
      100 * ms ≤ x.min.ns := by
  intro h
  have := h ⟨true, false⟩ ⟨Duration.millis 20, Duration.millis 20, .nonConnectableUndirected⟩
    ⟨.nonConnectableUndirected, Or.inr ⟨Duration.millis 20, Duration.millis 20, by decide +kernel⟩⟩
    rfl (Or.inr rfl)
  revert this
  decide

/-- **C35, the part that holds.** The floor is respected for the scannable type. Missing: the
non-connectable type (`C35_floor_fails`). -/
theorem C35_floor_partial (c : Cfg) (x : AdvertisingInterval) (hx : BuiltAdv c x)
    (hv : c.v50 = false) (ht : x.advertisingType = .scannableUndirected) : 100 * ms ≤ x.min.ns := by
  obtain ⟨t, h | ⟨lo, hi, h⟩⟩ := hx
  · rw [C34_build] at h
    split at h
    · cases h; cases ht
    · cases h
  · obtain ⟨rfl, h1, h2, h3⟩ := (C34_accept_iff _ _ _ _ _).mp h
    rwa [if_pos ⟨hv, ht⟩] at h1

example : BuiltAdv ⟨true, false⟩ ⟨Duration.millis 100, Duration.millis 100, .scannableUndirected⟩ :=
  ⟨.scannableUndirected, Or.inr ⟨Duration.millis 100, Duration.millis 100, by decide +kernel⟩⟩

/-- **C35, exactly what is enforced.** The types for which every accepted range has a minimum of at least 100 ms
are the scannable type before version 5.0, and no other type in any version. -/
theorem C35_floor_iff_partial (c : Cfg) (t : AdvertisingType) :
    (∀ lo hi r, (AdvertisingInterval.forType t).withRange c lo hi = .ok r → 100 * ms ≤ r.min.ns) ↔
      c.v50 = false ∧ t = .scannableUndirected := by
  constructor
  · intro h
    refine Decidable.byContradiction fun hn => ?_
    have := h (Duration.millis 20) (Duration.millis 20) _
      ((C34_accept_iff c t _ _ _).mpr ⟨rfl, by rw [if_neg hn]; decide, by decide, by decide⟩)
    revert this
    show ¬ 100 * ms ≤ (Duration.millis 20).ns
    decide
  · rintro ⟨hv, ht⟩ lo hi r h
    obtain ⟨rfl, h1, -, -⟩ := (C34_accept_iff _ _ _ _ _).mp h
    rwa [if_pos ⟨hv, ht⟩] at h1

/-- The shortest scannable interval before version 5.0. -/
example : (AdvertisingInterval.forType .scannableUndirected).withRange ⟨true, false⟩ (Duration.millis 100)
    (Duration.millis 100) = .ok ⟨Duration.millis 100, Duration.millis 100, .scannableUndirected⟩ := by
  decide +kernel

/-! ## C36 -/

theorem eclNew_eq (lo hi : Duration) :
    ExpectedConnectionLength.new lo hi =
      if hi.ns < lo.ns then .err (.inverted lo hi)
      else if 40959375 * us < hi.ns then .err (.tooLong hi) else .ok ⟨lo, hi⟩ := by
  unfold ExpectedConnectionLength.new
  by_cases c1 : hi.ns < lo.ns
  · rw [if_pos c1, if_pos ((lt'_iff _ _).mpr c1)]
  · rw [if_neg c1, if_neg (by rw [lt'_iff]; exact c1)]
    have hm : ExpectedConnectionLength.durationAsU16 (ε := ExpectedConnectionLengthError)
        ExpectedConnectionLength.ABSOLUTE_MAX = .ok 0xFFFF := by decide +kernel
    rw [hm]
    simp only [Res.bind_ok]
    change (Res.assert true >>= fun _ => _) = _
    simp only [Res.assert_true, Res.bind_ok]
    have h2 : (ExpectedConnectionLength.ABSOLUTE_MAX.lt' hi = true) = (40959375 * us < hi.ns) := by
      rw [lt'_iff]; rfl
    by_cases c2 : 40959375 * us < hi.ns
    · rw [if_pos c2, if_pos (by rw [h2]; exact c2)]
    · rw [if_neg c2, if_neg (by rw [h2]; exact c2)]

/-- **C36.** A pair of lengths is accepted exactly when min ≤ max ≤ 40.959375 s; the errors are exact and
`new` never panics. -/
theorem C36_accept_iff (lo hi : Duration) :
    (∀ r, ExpectedConnectionLength.new lo hi = .ok r ↔
      r = ⟨lo, hi⟩ ∧ lo.ns ≤ hi.ns ∧ hi.ns ≤ 40959375 * us) ∧
    (∀ a b, ExpectedConnectionLength.new lo hi = .err (.inverted a b) ↔
      hi.ns < lo.ns ∧ a = lo ∧ b = hi) ∧
    (∀ d, ExpectedConnectionLength.new lo hi = .err (.tooLong d) ↔
      lo.ns ≤ hi.ns ∧ 40959375 * us < hi.ns ∧ d = hi) ∧
    ExpectedConnectionLength.new lo hi ≠ .panic := by
  rw [eclNew_eq]
  refine ⟨fun r => ⟨fun h => ?_, ?_⟩, fun a b => ⟨fun h => ?_, ?_⟩, fun d => ⟨fun h => ?_, ?_⟩, ?_⟩
  · (repeat' split at h) <;> try (simp only [reduceCtorEq] at h; done)
    cases h
    exact ⟨rfl, by omega, by omega⟩
  · rintro ⟨rfl, h1, h2⟩
    rw [if_neg (by omega), if_neg (by omega)]
  · (repeat' split at h) <;> try (simp only [reduceCtorEq, Res.err.injEq] at h; done)
    cases h
    exact ⟨by assumption, rfl, rfl⟩
  · rintro ⟨h, rfl, rfl⟩
    rw [if_pos h]
  · (repeat' split at h) <;> try (simp only [reduceCtorEq, Res.err.injEq] at h; done)
    cases h
    exact ⟨by omega, by assumption, rfl⟩
  · rintro ⟨h, h2, rfl⟩
    rw [if_neg (by omega), if_pos h2]
  · (repeat' split) <;> simp

example : ExpectedConnectionLength.new (Duration.millis 2) (Duration.millis 1) =
      .err (.inverted (Duration.millis 2) (Duration.millis 1)) ∧
    ExpectedConnectionLength.new (Duration.millis 2) (Duration.secs 41) = .err (.tooLong (Duration.secs 41)) := by
  decide +kernel

/-- **C36.** An accepted pair serialises to the exact floors in 0.625 ms units; nothing wraps. -/
theorem C36_serialised (lo hi : Duration) (r : ExpectedConnectionLength)
    (h : ExpectedConnectionLength.new lo hi = .ok r) (buf : List UInt8) (hb : 4 ≤ buf.length) :
    ∃ a b : UInt16, r.copyIntoSlice (ε := Empty) buf = .ok (le16 a ++ le16 b ++ buf.drop 4) ∧
      a.toNat = lo.ns / (625 * us) ∧ b.toNat = hi.ns / (625 * us) ∧ a.toNat ≤ b.toNat := by
  obtain ⟨rfl, h1, h2⟩ := ((C36_accept_iff lo hi).1 r).mp h
  refine ⟨_, _, copyConnectionLength_eq _ buf hb ?_ ?_, ?_, ?_, ?_⟩ <;>
    (try simp only [UInt16.toNat_ofNat', units625us]) <;> simp only [us] at * <;> omega

example : ExpectedConnectionLength.new (Duration.millis 1) (Duration.micros 40959375) =
    .ok ⟨Duration.millis 1, Duration.micros 40959375⟩ := by decide +kernel

end Bt
