import Verif.Props.ConnectionInterval
import Verif.Spec.Constructible

/-! # C30-C32: connection intervals on the wire -/

namespace Bt

open Spec

theorem build_ok_iff (lo hi : Duration) (lat : UInt16) (to : Duration) (r : ConnectionInterval) :
    ConnectionIntervalBuilder.build ⟨some (lo, hi), some lat, some to⟩ = .ok r ↔
      r = ⟨lo, hi, lat, to⟩ ∧ LegalConnection lo.ns hi.ns lat.toNat to.ns := by
  have := C28_build_iff [.range lo hi, .latency lat, .timeout to] r
  rw [builderAfter_eq] at this
  simp only [lastRange, lastLatency, lastTimeout, List.filterMap_cons, List.filterMap_nil,
    List.getLast?_singleton, Option.some.injEq, Prod.mk.injEq] at this
  rw [this]
  constructor
  · rintro ⟨⟨rfl, rfl⟩, rfl, rfl, h⟩
    exact ⟨rfl, h⟩
  · rintro ⟨rfl, h⟩
    exact ⟨⟨rfl, rfl⟩, rfl, rfl, h⟩

/-- **C30.** `ConnectionInterval::from_bytes` accepts exactly the byte strings whose raw fields are legal,
and returns the decoded values (units of 1.25 ms and 10 ms). Every byte string of at least eight bytes
has the form `le16 a ++ le16 b ++ le16 l ++ le16 t ++ rest` (`C30_every_string`). -/
theorem C30_from_bytes (a b l t : UInt16) (rest : List UInt8) (r : ConnectionInterval) :
    ConnectionInterval.fromBytes (le16 a ++ le16 b ++ le16 l ++ le16 t ++ rest) = .ok r ↔
      LegalRaw a.toNat b.toNat l.toNat t.toNat ∧
      r.intervalMin.ns = 1250 * us * a.toNat ∧ r.intervalMax.ns = 1250 * us * b.toNat ∧
      r.connLatency = l ∧ r.supervisionTimeout.ns = 10 * ms * t.toNat := by
  rw [fromBytes_eq, build_ok_iff]
  simp only [durUnits, durTimeout]
  rw [legalRaw_iff]
  constructor
  · rintro ⟨rfl, h⟩
    exact ⟨h, rfl, rfl, rfl, rfl⟩
  · rintro ⟨h, h1, h2, h3, h4⟩
    refine ⟨?_, h⟩
    cases r
    simp only [ConnectionInterval.mk.injEq]
    exact ⟨Duration.ext' h1, Duration.ext' h2, h3, Duration.ext' h4⟩

example : LegalRaw 6 3200 1 2000 := by constructor <;> decide

/-- **C30.** `FixedConnectionInterval::from_bytes` likewise, for the single interval of a connection event. -/
theorem C30_fixed_from_bytes (a l t : UInt16) (rest : List UInt8) (r : FixedConnectionInterval) :
    FixedConnectionInterval.fromBytes (le16 a ++ le16 l ++ le16 t ++ rest) = .ok r ↔
      LegalRaw a.toNat a.toNat l.toNat t.toNat ∧
      r.interval.ns = 1250 * us * a.toNat ∧ r.connLatency = l ∧
      r.supervisionTimeout.ns = 10 * ms * t.toNat := by
  rw [fixedFromBytes_eq, ← legalRaw_iff]
  have key := build_ok_iff (durUnits a) (durUnits a) l (durTimeout t)
    ⟨durUnits a, durUnits a, l, durTimeout t⟩
  simp only [true_and] at key
  change _ ↔ LegalConnection (durUnits a).ns (durUnits a).ns l.toNat (durTimeout t).ns ∧ _
  rw [← key]
  cases hb : ConnectionIntervalBuilder.build
    ⟨some (durUnits a, durUnits a), some l, some (durTimeout t)⟩ with
  | ok x =>
    have hx := ((build_ok_iff _ _ _ _ _).mp hb).1
    subst hx
    simp only [Res.mapOk_ok, Res.ok.injEq, true_and]
    constructor
    · rintro rfl
      exact ⟨rfl, rfl, rfl⟩
    · rintro ⟨h1, h2, h3⟩
      cases r
      simp only [FixedConnectionInterval.mk.injEq]
      exact ⟨(Duration.ext' h1).symm, h2.symm, (Duration.ext' h3).symm⟩
  | err e => simp
  | panic => simp

example : (FixedConnectionInterval.fromBytes [0x18, 0, 1, 0, 0x90, 0x01]) =
    .ok ⟨Duration.millis 30, 1, Duration.secs 4⟩ := by decide +kernel

/-- **C30.** A byte string is rejected exactly for the first constraint that its decoded values violate;
`Incomplete` is never reported and nothing overflows: both functions panic exactly when the slice is too
short (documented). -/
theorem C30_errors (a b l t : UInt16) (rest : List UInt8) (e : ConnectionIntervalError) :
    (ConnectionInterval.fromBytes (le16 a ++ le16 b ++ le16 l ++ le16 t ++ rest) = .err e ↔
      e ≠ .incomplete ∧ ∃ lo hi to : Duration, lo.ns = 1250 * us * a.toNat ∧ hi.ns = 1250 * us * b.toNat ∧
        to.ns = 10 * ms * t.toNat ∧ FirstViolation lo hi l to e) ∧
    (FixedConnectionInterval.fromBytes (le16 a ++ le16 l ++ le16 t ++ rest) = .err e ↔
      e ≠ .incomplete ∧ ∃ lo to : Duration, lo.ns = 1250 * us * a.toNat ∧
        to.ns = 10 * ms * t.toNat ∧ FirstViolation lo lo l to e) := by
  constructor
  · rw [fromBytes_eq, C29_first_violation]
    constructor
    · intro h
      refine ⟨?_, durUnits a, durUnits b, durTimeout t, rfl, rfl, rfl, h⟩
      rintro rfl
      exact h
    · rintro ⟨_, lo, hi, to, h1, h2, h3, h⟩
      rwa [show durUnits a = lo from Duration.ext' h1.symm, show durUnits b = hi from Duration.ext' h2.symm,
        show durTimeout t = to from Duration.ext' h3.symm]
  · rw [fixedFromBytes_eq]
    have key : ∀ {α β : Type} (R : Res ConnectionIntervalError α) (f : α → β),
        R.mapOk f = .err e ↔ R = .err e := by
      intro _ _ R f; cases R <;> simp
    rw [key, C29_first_violation]
    constructor
    · intro h
      refine ⟨?_, durUnits a, durTimeout t, rfl, rfl, h⟩
      rintro rfl
      exact h
    · rintro ⟨_, lo, to, h1, h2, h⟩
      rwa [show durUnits a = lo from Duration.ext' h1.symm, show durTimeout t = to from Duration.ext' h2.symm]

example : FixedConnectionInterval.fromBytes [0, 0, 0, 0, 0, 0] =
    .err (.intervalTooShort (Duration.secs 0)) := by decide +kernel

theorem leVal_le16 (v : UInt16) : leVal (le16 v) = v.toNat := by
  rw [leVal_eq_leNat, le16, ← leBytes_eq_le, leNat_leBytes]
  have := v.toNat_lt
  omega

theorem long_enough (bs : List UInt8) :
    (8 ≤ bs.length → ∃ a b l t rest, bs = le16 a ++ le16 b ++ le16 l ++ le16 t ++ rest) ∧
    (6 ≤ bs.length → ∃ a l t rest, bs = le16 a ++ le16 l ++ le16 t ++ rest) := by
  constructor
  · intro h
    obtain ⟨a, r1, rfl, h1⟩ := exists_le16 bs (by omega)
    obtain ⟨b, r2, rfl, h2⟩ := exists_le16 r1 (by omega)
    obtain ⟨l, r3, rfl, h3⟩ := exists_le16 r2 (by omega)
    obtain ⟨t, r4, rfl, _⟩ := exists_le16 r3 (by omega)
    exact ⟨a, b, l, t, r4, by simp⟩
  · intro h
    obtain ⟨a, r1, rfl, h1⟩ := exists_le16 bs (by omega)
    obtain ⟨l, r3, rfl, h3⟩ := exists_le16 r1 (by omega)
    obtain ⟨t, r4, rfl, _⟩ := exists_le16 r3 (by omega)
    exact ⟨a, l, t, r4, by simp⟩

/-- **C30.** The same for every byte string that is long enough, read two bytes at a time. -/
theorem C30_every_string (bs : List UInt8) :
    let field := fun i => leVal ((bs.drop (2 * i)).take 2)
    (8 ≤ bs.length → ∀ r, ConnectionInterval.fromBytes bs = .ok r ↔
      LegalRaw (field 0) (field 1) (field 2) (field 3) ∧
      r.intervalMin.ns = 1250 * us * field 0 ∧ r.intervalMax.ns = 1250 * us * field 1 ∧
      r.connLatency.toNat = field 2 ∧ r.supervisionTimeout.ns = 10 * ms * field 3) ∧
    (6 ≤ bs.length → ∀ r, FixedConnectionInterval.fromBytes bs = .ok r ↔
      LegalRaw (field 0) (field 0) (field 1) (field 2) ∧
      r.interval.ns = 1250 * us * field 0 ∧ r.connLatency.toNat = field 1 ∧
      r.supervisionTimeout.ns = 10 * ms * field 2) := by
  refine ⟨fun h r => ?_, fun h r => ?_⟩
  · obtain ⟨a, b, l, t, rest, rfl⟩ := (long_enough bs).1 h
    rw [C30_from_bytes]
    simp [List.drop_append, List.drop_of_length_le, leVal_le16, ← UInt16.toNat_inj]
  · obtain ⟨a, l, t, rest, rfl⟩ := (long_enough bs).2 h
    rw [C30_fixed_from_bytes]
    simp [List.drop_append, List.drop_of_length_le, leVal_le16, ← UInt16.toNat_inj]

example : ConnectionInterval.fromBytes [6, 0, 0x80, 0x0C, 1, 0, 0xD0, 7] =
    .ok ⟨Duration.micros 7500, Duration.secs 4, 1, Duration.secs 20⟩ := by decide +kernel

/-- **C30.** Panics happen exactly on slices that are too short. -/
theorem C30_panic_iff (bs : List UInt8) :
    (ConnectionInterval.fromBytes bs = .panic ↔ bs.length < 8) ∧
    (FixedConnectionInterval.fromBytes bs = .panic ↔ bs.length < 6) := by
  constructor
  · constructor
    · intro h
      by_cases hl : bs.length < 8
      · exact hl
      obtain ⟨a, b, l, t, rest, rfl⟩ := (long_enough bs).1 (by omega)
      rw [fromBytes_eq] at h
      exact absurd h (C29_incomplete_and_total _).2
    · intro h
      unfold ConnectionInterval.fromBytes
      rw [decide_eq_false (by omega)]
      rfl
  · constructor
    · intro h
      by_cases hl : bs.length < 6
      · exact hl
      obtain ⟨a, l, t, rest, rfl⟩ := (long_enough bs).2 (by omega)
      rw [fixedFromBytes_eq] at h
      have := (C29_incomplete_and_total
        ⟨some (durUnits a, durUnits a), some l, some (durTimeout t)⟩).2
      revert h this
      cases ConnectionIntervalBuilder.build
        ⟨some (durUnits a, durUnits a), some l, some (durTimeout t)⟩ <;> simp
    · intro h
      unfold FixedConnectionInterval.fromBytes
      rw [decide_eq_false (by omega)]
      rfl

example : ConnectionInterval.fromBytes [6, 0, 0x80, 0x0C, 1, 0, 0xD0] = .panic ∧
    FixedConnectionInterval.fromBytes [6, 0, 0x80, 0x0C, 1] = .panic := by decide +kernel

theorem built_iff (x : ConnectionInterval) :
    Built x ↔ LegalConnection x.intervalMin.ns x.intervalMax.ns x.connLatency.toNat x.supervisionTimeout.ns := by
  constructor
  · rintro ⟨⟨_ | ⟨lo, hi⟩, _ | lat, _ | to⟩, h⟩
    case some.some.some =>
      obtain ⟨rfl, h'⟩ := (build_ok_iff _ _ _ _ _).mp h
      exact h'
    all_goals simp [ConnectionIntervalBuilder.build] at h
  · intro h
    exact ⟨⟨some (x.intervalMin, x.intervalMax), some x.connLatency, some x.supervisionTimeout⟩,
      (build_ok_iff _ _ _ _ _).mpr ⟨rfl, h⟩⟩

theorem copyInterval_built {ε : Type} (x : ConnectionInterval) (hx : Built x) (buf : List UInt8)
    (hb : 8 ≤ buf.length) :
    x.copyIntoSlice (ε := ε) buf = .ok (
      le16 (UInt16.ofNat (writtenInterval x.intervalMin.ns)) ++
        le16 (UInt16.ofNat (writtenInterval x.intervalMax.ns)) ++ le16 x.connLatency ++
        le16 (UInt16.ofNat (units10ms x.supervisionTimeout.ns)) ++ buf.drop 8) := by
  have h := (built_iff x).mp hx
  exact copyInterval_eq x buf hb (Nat.le_trans h.order h.maxBound) h.maxBound h.timeoutHigh

/-- A connection interval on the wire's grid: multiples of 1.25 ms, timeout a multiple of 10 ms. -/
def OnGrid (x : ConnectionInterval) : Prop :=
  1250 * us ∣ x.intervalMin.ns ∧ 1250 * us ∣ x.intervalMax.ns ∧ 10 * ms ∣ x.supervisionTimeout.ns

/-- **C31, false as stated.** A valid interval on the 1.25 ms grid (7.5 ms, the smallest legal one) does not
survive the round trip: it is written as 5 units (6.25 ms), which the decoder rejects. -/
theorem C31_round_trip_fails :
    ¬ ∀ x : ConnectionInterval, Built x → OnGrid x →
      ∃ bytes, x.copyIntoSlice (ε := Empty) (zeroes 8) = .ok bytes ∧
        ConnectionInterval.fromBytes bytes = .ok x := by
  intro h
  have hl : LegalConnection (Duration.micros 7500).ns (Duration.micros 7500).ns 0 (Duration.secs 1).ns := by
    constructor <;> decide
  obtain ⟨bytes, h1, h2⟩ := h ⟨Duration.micros 7500, Duration.micros 7500, 0, Duration.secs 1⟩
    ((built_iff _).mpr hl) (by unfold OnGrid; decide)
  have h3 : ConnectionInterval.copyIntoSlice (ε := Empty)
      ⟨Duration.micros 7500, Duration.micros 7500, 0, Duration.secs 1⟩ (zeroes 8) =
      .ok [5, 0, 5, 0, 0, 0, 100, 0] := by decide +kernel
  rw [h3] at h1
  cases h1
  revert h2
  decide +kernel

/-- **C31, the part that holds.** For a valid interval on the grid the round trip gives back the same
interval exactly when both bounds are multiples of 5 ms. Missing: the other three quarters of the grid,
where the serialiser loses up to one unit (`C31_round_trip_fails`). -/
theorem C31_round_trip_partial (x : ConnectionInterval) (hx : Built x) (hg : OnGrid x)
    (buf : List UInt8) (hb : 8 ≤ buf.length) :
    ∃ bytes, x.copyIntoSlice (ε := Empty) buf = .ok bytes ∧
      (ConnectionInterval.fromBytes bytes = .ok x ↔
        5 * ms ∣ x.intervalMin.ns ∧ 5 * ms ∣ x.intervalMax.ns) := by
  refine ⟨_, copyInterval_built x hx buf hb, ?_⟩
  have h := (built_iff x).mp hx
  have hle := h.latencyBound
  obtain ⟨⟨p, hp⟩, ⟨q, hq⟩, ⟨t, ht⟩⟩ := hg
  have hmax := h.maxBound
  have hord := h.order
  have hto := h.timeoutHigh
  rw [C30_from_bytes, ← legalRaw_iff, UInt16.toNat_ofNat', UInt16.toNat_ofNat', UInt16.toNat_ofNat']
  rw [hp, hq, ht]
  rw [hp, hq] at hord
  rw [hq] at hmax
  rw [ht] at hto
  have e1 : writtenInterval (1250 * us * p) % 2 ^ 16 = 4 * (5 * p / 4) / 5 := by
    have hk : 1250 * us * p / ms = 5 * p / 4 := by simp only [us, ms]; omega
    have hv : p ≤ 3200 := by simp only [us, sec] at hord hmax; omega
    rw [writtenInterval, hk]
    omega
  have e2 : writtenInterval (1250 * us * q) % 2 ^ 16 = 4 * (5 * q / 4) / 5 := by
    have hk : 1250 * us * q / ms = 5 * q / 4 := by simp only [us, ms]; omega
    have hv : q ≤ 3200 := by simp only [us, sec] at hord hmax; omega
    rw [writtenInterval, hk]
    omega
  have e3 : units10ms (10 * ms * t) % 2 ^ 16 = t := by
    simp only [units10ms, us, ms, sec] at *; omega
  rw [e1, e2, e3]
  have d1 : 5 * ms ∣ 1250 * us * p ↔ 4 * (5 * p / 4) / 5 = p := by
    simp only [us, ms]; omega
  have d2 : 5 * ms ∣ 1250 * us * q ↔ 4 * (5 * q / 4) / 5 = q := by
    simp only [us, ms]; omega
  rw [d1, d2]
  rw [hp, hq, ht] at h
  constructor
  · rintro ⟨_, h1, h2, _⟩
    simp only [us] at h1 h2
    omega
  · rintro ⟨h1, h2⟩
    rw [h1, h2]
    exact ⟨h, rfl, rfl, rfl, rfl⟩

example : Built ⟨Duration.millis 10, Duration.millis 15, 2, Duration.secs 1⟩ ∧
    OnGrid ⟨Duration.millis 10, Duration.millis 15, 2, Duration.secs 1⟩ :=
  ⟨(built_iff _).mpr (by constructor <;> decide), by unfold OnGrid; decide⟩

/-- **C32, false as stated.** The smallest legal interval is serialised below the air interface's minimum
of 6 units. -/
theorem C32_lower_bound_fails :
    ¬ ∀ x : ConnectionInterval, Built x → ∀ a b l t : UInt16,
      x.copyIntoSlice (ε := Empty) (zeroes 8) = .ok (le16 a ++ le16 b ++ le16 l ++ le16 t) →
      6 ≤ a.toNat := by
  intro h
  have hl : LegalConnection (Duration.micros 7500).ns (Duration.micros 7500).ns 0 (Duration.secs 1).ns := by
    constructor <;> decide
  have := h ⟨Duration.micros 7500, Duration.micros 7500, 0, Duration.secs 1⟩
    ((built_iff _).mpr hl) 5 5 0 100 (by decide +kernel)
  revert this
  decide

/-- **C32, the part that holds.** Every value the builder can produce is written as four little-endian
16-bit fields and nothing else is touched: interval bounds `4 * ⌊ms⌋ / 5` in 5..3200 with min ≤ max, latency at
most 499, timeout the exact floor in 10 ms units, in 10..3200. Missing: the lower bound 6. -/
theorem C32_serialised_partial (x : ConnectionInterval) (hx : Built x) (buf : List UInt8)
    (hb : 8 ≤ buf.length) :
    ∃ a b t : UInt16,
      x.copyIntoSlice (ε := Empty) buf =
        .ok (le16 a ++ le16 b ++ le16 x.connLatency ++ le16 t ++ buf.drop 8) ∧
      a.toNat = 4 * (x.intervalMin.ns / ms) / 5 ∧ b.toNat = 4 * (x.intervalMax.ns / ms) / 5 ∧
      t.toNat = x.supervisionTimeout.ns / (10 * ms) ∧
      5 ≤ a.toNat ∧ a.toNat ≤ b.toNat ∧ b.toNat ≤ 3200 ∧ x.connLatency.toNat ≤ 499 ∧
      10 ≤ t.toNat ∧ t.toNat ≤ 3200 := by
  have h := (built_iff x).mp hx
  refine ⟨_, _, _, copyInterval_built x hx buf hb, ?_⟩
  simp only [UInt16.toNat_ofNat']
  have h1 := h.minBound
  have h2 := h.order
  have h3 := h.maxBound
  have h4 := h.timeoutLow
  have h5 := h.timeoutHigh
  have e1 : writtenInterval x.intervalMin.ns % 2 ^ 16 = 4 * (x.intervalMin.ns / ms) / 5 := by
    simp only [writtenInterval, us, ms, sec] at *; omega
  have e2 : writtenInterval x.intervalMax.ns % 2 ^ 16 = 4 * (x.intervalMax.ns / ms) / 5 := by
    simp only [writtenInterval, us, ms, sec] at *; omega
  have e3 : units10ms x.supervisionTimeout.ns % 2 ^ 16 = x.supervisionTimeout.ns / (10 * ms) := by
    simp only [units10ms, us, ms, sec] at *; omega
  rw [e1, e2, e3]
  refine ⟨rfl, rfl, rfl, ?_, ?_, ?_, h.latencyBound, ?_, ?_⟩ <;>
    simp only [us, ms, sec] at * <;> omega

example : Built ⟨Duration.micros 7500, Duration.secs 4, 0, Duration.secs 32⟩ :=
  (built_iff _).mpr (by constructor <;> decide)

/-- **C32, where the missing bound holds.** The written minimum is at least 6 units exactly when the interval
asked for is at least 8 ms, and the written maximum likewise; the intervals from 7.5 ms up to 8 ms are the
only ones written below the limit. -/
theorem C32_lower_bound_iff_partial (x : ConnectionInterval) (hx : Built x) (buf : List UInt8) (a b l t : UInt16)
    (hw : x.copyIntoSlice (ε := Empty) buf = .ok (le16 a ++ le16 b ++ le16 l ++ le16 t ++ buf.drop 8))
    (hb : 8 ≤ buf.length) :
    (6 ≤ a.toNat ↔ 8 * ms ≤ x.intervalMin.ns) ∧ (6 ≤ b.toNat ↔ 8 * ms ≤ x.intervalMax.ns) := by
  obtain ⟨a', b', t', h, h1, h2, -⟩ := C32_serialised_partial x hx buf hb
  rw [h] at hw
  have hw := Res.ok.inj hw
  simp only [List.append_assoc] at hw
  obtain ⟨e1, hw⟩ := List.append_inj hw (by simp)
  obtain ⟨e2, -⟩ := List.append_inj hw (by simp)
  rw [← le16_inj e1, ← le16_inj e2, h1, h2]
  simp only [ms]
  constructor <;> omega

/-- An interval of exactly 8 ms, written as 6 units. -/
example : Built ⟨Duration.millis 8, Duration.millis 8, 0, Duration.secs 1⟩ ∧
    (ConnectionInterval.mk (Duration.millis 8) (Duration.millis 8) 0 (Duration.secs 1)).copyIntoSlice (ε := Empty)
      (zeroes 8) = .ok (le16 6 ++ le16 6 ++ le16 0 ++ le16 100 ++ (zeroes 8).drop 8) :=
  ⟨(built_iff _).mpr (by constructor <;> decide), by decide +kernel⟩

end Bt
