import Verif.Lemmas.Types

/-! # C28-C32: connection intervals -/

namespace Bt

open Spec

/-- Apply one setter call to a builder. -/
def applySetter (b : ConnectionIntervalBuilder) : Setter → ConnectionIntervalBuilder
  | .range lo hi => b.withRange lo hi
  | .latency l => b.withLatency l
  | .timeout t => b.withSupervisionTimeout t

/-- The builder obtained by a history of setter calls on a new builder. -/
def builderAfter (calls : List Setter) : ConnectionIntervalBuilder :=
  calls.foldl applySetter ConnectionIntervalBuilder.new

theorem foldl_applySetter (calls : List Setter) (b : ConnectionIntervalBuilder) :
    calls.foldl applySetter b =
      ⟨(lastRange calls).or b.interval, (lastLatency calls).or b.connLatency,
        (lastTimeout calls).or b.supervisionTimeout⟩ := by
  induction calls generalizing b with
  | nil => rfl
  | cons s calls ih =>
    rw [List.foldl_cons, ih]
    cases s <;>
      simp only [applySetter, lastRange, lastLatency, lastTimeout, List.filterMap_cons,
        ConnectionIntervalBuilder.withRange, ConnectionIntervalBuilder.withLatency,
        ConnectionIntervalBuilder.withSupervisionTimeout, List.getLast?_cons,
        ConnectionIntervalBuilder.mk.injEq, and_true, true_and]
    · cases (calls.filterMap (fun s => match s with | .range a b => some (a, b) | _ => none)).getLast? <;> rfl
    · cases (calls.filterMap (fun s => match s with | .latency a => some a | _ => none)).getLast? <;> rfl
    · cases (calls.filterMap (fun s => match s with | .timeout a => some a | _ => none)).getLast? <;> rfl

theorem builderAfter_eq (calls : List Setter) :
    builderAfter calls = ⟨lastRange calls, lastLatency calls, lastTimeout calls⟩ := by
  rw [builderAfter, foldl_applySetter]
  simp [ConnectionIntervalBuilder.new]

/-- **C28.** After any sequence of setter calls, `build` succeeds exactly when each of the three parameters
was given and the last values given are legal, and the result holds exactly those values. -/
theorem C28_build_iff (calls : List Setter) (r : ConnectionInterval) :
    (builderAfter calls).build = .ok r ↔
      lastRange calls = some (r.intervalMin, r.intervalMax) ∧
      lastLatency calls = some r.connLatency ∧
      lastTimeout calls = some r.supervisionTimeout ∧
      LegalConnection r.intervalMin.ns r.intervalMax.ns r.connLatency.toNat r.supervisionTimeout.ns := by
  rw [builderAfter_eq]
  cases hr : lastRange calls with
  | none => simp [ConnectionIntervalBuilder.build]
  | some p =>
    obtain ⟨lo, hi⟩ := p
    cases hl : lastLatency calls with
    | none => simp [ConnectionIntervalBuilder.build]
    | some lat =>
      cases ht : lastTimeout calls with
      | none => simp [ConnectionIntervalBuilder.build]
      | some to =>
        rw [build_some]
        constructor
        · intro h
          (repeat' split at h) <;> try (simp only [reduceCtorEq] at h; done)
          rename_i h1 h2 h3 h4 h5 h6 h7 h8
          cases h
          simp only [Nat.not_le, Nat.not_lt] at *
          refine ⟨trivial, trivial, trivial, ⟨h1, h3, h2, h4, h6, ?_, ?_, h8⟩⟩
          · exact Nat.lt_of_le_of_lt (Nat.le_max_left _ _) h7
          · exact Nat.lt_of_le_of_lt (Nat.le_max_right _ _) h7
        · rintro ⟨h1, h2, h3, h4⟩
          simp only [Option.some.injEq, Prod.mk.injEq] at h1 h2 h3
          obtain ⟨rfl, rfl⟩ := h1
          subst h2 h3
          have hf := h4.feasible
          have hm : r.supervisionTimeout.ns > Max.max (minTimeout r.intervalMax.ns r.connLatency.toNat) (100 * ms) :=
            Nat.max_lt.mpr ⟨h4.timeoutAbove, h4.timeoutLow⟩
          rw [if_neg (Nat.not_lt.mpr h4.minBound), if_neg (Nat.not_lt.mpr h4.maxBound),
            if_neg (Nat.not_lt.mpr h4.order), if_neg (Nat.not_lt.mpr h4.latencyBound),
            dif_pos (by simp only [sec] at hf; unfold durationLimit; omega), if_neg (Nat.not_le.mpr hf),
            if_neg (Nat.not_le.mpr hm), if_neg (Nat.not_lt.mpr h4.timeoutHigh)]

example : (builderAfter [.timeout (Duration.millis 1), .latency 3, .timeout (Duration.secs 5),
    .range (Duration.millis 50) (Duration.millis 500)]).build =
    .ok ⟨Duration.millis 50, Duration.millis 500, 3, Duration.secs 5⟩ := by decide +kernel

/-- **C29.** When all parameters were given, `build` fails with exactly the first violated constraint in
the documented order, carrying the offending values. -/
theorem C29_first_violation (lo hi : Duration) (lat : UInt16) (to : Duration)
    (e : ConnectionIntervalError) :
    (ConnectionIntervalBuilder.mk (some (lo, hi)) (some lat) (some to)).build = .err e ↔
      FirstViolation lo hi lat to e := by
  rw [build_some]
  have hlim : minTimeout hi.ns lat.toNat < 32 * sec → minTimeout hi.ns lat.toNat < durationLimit := by
    intro h; simp only [sec] at h; unfold durationLimit; omega
  have hmax : ∀ h, (Duration.max ⟨minTimeout hi.ns lat.toNat, h⟩ (Duration.millis 100)).ns =
      Max.max (minTimeout hi.ns lat.toNat) (100 * ms) := by
    intro h
    unfold Duration.max Duration.millis
    simp only [ms]
    split <;> simp only [Nat.max_def] <;> split <;> omega
  constructor
  · intro h
    (repeat' split at h) <;> cases h <;>
      simp only [Nat.not_le, Nat.not_lt, FirstViolation, and_true] at * <;> (try rw [hmax]) <;>
      (try simp only [true_and]) <;> and_intros <;> assumption
  · intro h
    cases e <;> simp only [FirstViolation] at h
    · obtain ⟨h1, rfl⟩ := h
      rw [if_pos h1]
    · obtain ⟨h1, h2, rfl⟩ := h
      rw [if_neg (Nat.not_lt.mpr h1), if_pos h2]
    · obtain ⟨h1, h2, h3, rfl, rfl⟩ := h
      rw [if_neg (Nat.not_lt.mpr h1), if_neg (Nat.not_lt.mpr h2), if_pos h3]
    · obtain ⟨h1, h2, h3, h4, rfl⟩ := h
      rw [if_neg (Nat.not_lt.mpr h1), if_neg (Nat.not_lt.mpr h2), if_neg (Nat.not_lt.mpr h3), if_pos h4]
    · rename_i g m
      obtain ⟨h1, h2, h3, h4, h5, h6, h7, rfl⟩ := h
      rw [if_neg (Nat.not_lt.mpr h1), if_neg (Nat.not_lt.mpr h2), if_neg (Nat.not_lt.mpr h3),
        if_neg (Nat.not_lt.mpr h4), dif_pos (hlim h5), if_neg (Nat.not_le.mpr h5),
        if_pos (by rw [h6] at h7; exact h7)]
      have : Duration.max ⟨minTimeout hi.ns lat.toNat, hlim h5⟩ (Duration.millis 100) = m :=
        Duration.ext' (by rw [hmax, h6])
      rw [this]
    · obtain ⟨h1, h2, h3, h4, h5, h6, rfl⟩ := h
      rw [if_neg (Nat.not_lt.mpr h1), if_neg (Nat.not_lt.mpr h2), if_neg (Nat.not_lt.mpr h3),
        if_neg (Nat.not_lt.mpr h4), dif_pos (hlim h5), if_neg (Nat.not_le.mpr h5), if_neg, if_pos h6]
      simp only [sec, ms] at *
      intro hc
      omega
    · rename_i d
      obtain ⟨h1, h2, h3, h4, h5, h6⟩ := h
      have hd := d.lt
      rw [h6] at hd
      rw [if_neg (Nat.not_lt.mpr h1), if_neg (Nat.not_lt.mpr h2), if_neg (Nat.not_lt.mpr h3),
        if_neg (Nat.not_lt.mpr h4), dif_pos hd, if_pos h5]
      have : (⟨minTimeout hi.ns lat.toNat, hd⟩ : Duration) = d := Duration.ext' h6.symm
      rw [this]

example : (builderAfter [.range (Duration.millis 500) (Duration.millis 50), .latency 700,
    .timeout (Duration.secs 5)]).build =
    .err (.intervalInverted (Duration.millis 500) (Duration.millis 50)) := by decide +kernel

/-- **C29.** A builder that lacks a parameter reports `Incomplete` whatever the other values are, and
`build` never panics. -/
theorem C29_incomplete_and_total (b : ConnectionIntervalBuilder) :
    (b.build = .err .incomplete ↔ b.interval = none ∨ b.connLatency = none ∨ b.supervisionTimeout = none) ∧
    b.build ≠ .panic := by
  obtain ⟨_ | ⟨lo, hi⟩, _ | lat, _ | to⟩ := b
  case some.some.some =>
    refine ⟨?_, ?_⟩
    · rw [C29_first_violation]
      simp [FirstViolation]
    · rw [build_some]
      (repeat' split) <;> try simp
      rename_i h1 h2 h3 h4 h5
      apply h5
      simp only [minTimeout, us, sec, durationLimit] at *
      have : (1 + lat.toNat) * hi.ns ≤ 500 * 4000000000 := Nat.mul_le_mul (by omega) (by omega)
      omega
  all_goals simp [ConnectionIntervalBuilder.build]

example : (builderAfter [.latency 3, .timeout (Duration.secs 5)]).build = .err .incomplete := by
  decide +kernel

end Bt
