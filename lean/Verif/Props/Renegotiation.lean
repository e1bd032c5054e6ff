import Verif.Lemmas.Renegotiation
import Verif.Spec.Demo

/-! # C93: asking again for the connection parameters that were reported -/

namespace Bt

open Spec

variable {σ E : Type} (c : Cfg) (V : Vendor)

/-- **C93, the part that holds.** Parameters were reported, with an interval of `u` units of 1.25 ms, and the host
asks for them again, `n` times over, each time for what was reported last. Then the latency and the timeout stay as
they are, the interval loses one unit each time until it is a multiple of four, and this can go on for as long as
the interval has at least six units. Missing: the interval does not stay as it is (`C93_fails`). -/
theorem C93_rounds_partial [Nonempty σ] {i : FixedConnectionInterval} (hi : Reported c V i) (l : Link)
    (k : Controller σ E) : ∃ u, i.interval.ns = 1250 * us * u ∧ 6 ≤ u ∧ ∀ n j, Rounds c V l k n i j ↔
      j.interval.ns = 1250 * us * max (u - n) (4 * (u / 4)) ∧ 6 ≤ max (u - n) (4 * (u / 4)) ∧
      j.connLatency = i.connLatency ∧ j.supervisionTimeout = i.supervisionTimeout := by
  obtain ⟨a, la, t, hf⟩ := reported_fields hi
  have s₀ : σ := Classical.choice inferInstance
  refine ⟨a.toNat, hf.2.1, hf.1.minBound, fun n => ?_⟩
  induction n with
  | zero =>
    intro j
    have e : max (a.toNat - 0) (4 * (a.toNat / 4)) = a.toNat := by omega
    rw [e]
    constructor
    · intro h
      cases h
      exact ⟨hf.2.1, hf.1.minBound, rfl, rfl⟩
    · rintro ⟨h1, -, h2, h3⟩
      have : j = i := by
        cases i; cases j
        simp only [FixedConnectionInterval.mk.injEq]
        exact ⟨Duration.ext' (h1.trans hf.2.1.symm), h2, h3⟩
      rw [this]
      exact .none
  | succ n ih =>
    intro m
    have hlt := a.toNat_lt
    have key : ∀ x, 6 ≤ max (a.toNat - n) (4 * (a.toNat / 4)) →
        x = max (max (a.toNat - n) (4 * (a.toNat / 4)) - 1) (4 * (max (a.toNat - n) (4 * (a.toNat / 4)) / 4)) →
        x = max (a.toNat - (n + 1)) (4 * (a.toNat / 4)) := by
      intro x _ h; omega
    have mid : ∀ j : FixedConnectionInterval,
        j.interval.ns = 1250 * us * max (a.toNat - n) (4 * (a.toNat / 4)) →
        6 ≤ max (a.toNat - n) (4 * (a.toNat / 4)) → j.connLatency = i.connLatency →
        j.supervisionTimeout = i.supervisionTimeout →
        ∃ b : UInt16, b.toNat = max (a.toNat - n) (4 * (a.toNat / 4)) ∧ IntervalFields b la t j := by
      intro j h1 h6 h2 h3
      have hb : (UInt16.ofNat (max (a.toNat - n) (4 * (a.toNat / 4)))).toNat =
          max (a.toNat - n) (4 * (a.toNat / 4)) := by
        rw [UInt16.toNat_ofNat']; omega
      refine ⟨_, hb, ?_, ?_, h2.trans hf.2.2.1, by rw [h3]; exact hf.2.2.2⟩
      · rw [hb]; exact legalRaw_shorter hf.1 h6 (by omega)
      · rw [hb]; exact h1
    constructor
    · intro h
      cases h with
      | @more _ _ j _ hr ho =>
        obtain ⟨h1, h6, h2, h3⟩ := (ih j).mp hr
        obtain ⟨b, hb, hbf⟩ := mid j h1 h6 h2 h3
        obtain ⟨d, hd, hdf⟩ := (round_iff hbf l k s₀ m).mp ho
        rw [hb] at hd
        have hd' := key _ h6 hd
        rw [← hd']
        refine ⟨hdf.2.1, hdf.1.minBound, hdf.2.2.1.trans hf.2.2.1.symm, Duration.ext' ?_⟩
        rw [hdf.2.2.2, hf.2.2.2]
    · rintro ⟨h1, h6, h2, h3⟩
      have h6' : 6 ≤ max (a.toNat - n) (4 * (a.toNat / 4)) := by omega
      have hb : (UInt16.ofNat (max (a.toNat - n) (4 * (a.toNat / 4)))).toNat =
          max (a.toNat - n) (4 * (a.toNat / 4)) := by
        rw [UInt16.toNat_ofNat']; omega
      have hb' : (UInt16.ofNat (max (a.toNat - (n + 1)) (4 * (a.toNat / 4)))).toNat =
          max (a.toNat - (n + 1)) (4 * (a.toNat / 4)) := by
        rw [UInt16.toNat_ofNat']; omega
      have hj : (durUnits (UInt16.ofNat (max (a.toNat - n) (4 * (a.toNat / 4))))).ns =
          1250 * us * max (a.toNat - n) (4 * (a.toNat / 4)) :=
        congrArg (1250 * us * ·) hb
      obtain ⟨b, hbn, hbf⟩ := mid ⟨_, i.connLatency, i.supervisionTimeout⟩ hj h6' rfl rfl
      refine Rounds.more ((ih ⟨_, i.connLatency, i.supervisionTimeout⟩).mpr ⟨hj, h6', rfl, rfl⟩) ((round_iff hbf l k s₀ m).mpr
        ⟨.ofNat (max (a.toNat - (n + 1)) (4 * (a.toNat / 4))), ?_, ?_, ?_,
          h2.trans hf.2.2.1, by rw [h3]; exact hf.2.2.2⟩)
      · rw [hbn, hb']
        exact (key _ h6' rfl).symm
      · rw [hb']; exact legalRaw_shorter hf.1 h6 (by omega)
      · rw [hb']; exact h1

/-- An interval of 13.75 ms, which becomes 12.5 ms and then 10 ms at the third time. -/
example : max (11 - 1) (4 * (11 / 4)) = 10 ∧ max (11 - 3) (4 * (11 / 4)) = 8 ∧ max (11 - 9) (4 * (11 / 4)) = 8 ∧
    Event.new ⟨false, false⟩ demoVendor (frame 0x3E (0x03 :: 0 :: [1, 0] ++ [11, 0] ++ [0, 0] ++ [20, 0])) =
      .ok (.leConnectionUpdateComplete ⟨.success, ⟨1⟩, ⟨Duration.micros 13750, 0, Duration.millis 200⟩⟩) :=
  ⟨rfl, rfl, rfl, rfl⟩

/-- **C93.** The parameters reported can be asked for again and again, and stay as they are, exactly if the interval
is a multiple of 5 ms. -/
theorem C93_kept [Nonempty σ] {i : FixedConnectionInterval} (hi : Reported c V i) (l : Link) (k : Controller σ E) :
    (∀ n, (∃ j, Rounds c V l k n i j) ∧ ∀ j, Rounds c V l k n i j → j = i) ↔ 5 * ms ∣ i.interval.ns := by
  obtain ⟨u, hu, h6, h⟩ := C93_rounds_partial c V hi l k
  have hd : 5 * ms ∣ i.interval.ns ↔ 4 * (u / 4) = u := by
    rw [hu]; simp only [us, ms]; omega
  rw [hd]
  constructor
  · intro hk
    obtain ⟨⟨j, hj⟩, he⟩ := hk u
    rw [he j hj] at hj
    have := ((h u i).mp hj).1
    rw [hu] at this
    simp only [us] at this
    omega
  · intro he n
    have e : max (u - n) (4 * (u / 4)) = u := by omega
    refine ⟨⟨i, (h n i).mpr ⟨by rw [e]; exact hu, by omega, rfl, rfl⟩⟩, fun j hj => ?_⟩
    obtain ⟨h1, -, h2, h3⟩ := (h n j).mp hj
    rw [e, ← hu] at h1
    cases i; cases j
    simp only [FixedConnectionInterval.mk.injEq]
    exact ⟨Duration.ext' h1, h2, h3⟩

/-- 10 ms stays. -/
example : 5 * ms ∣ (Duration.millis 10).ns ∧
    Event.new ⟨false, false⟩ demoVendor (frame 0x3E (0x03 :: 0 :: [1, 0] ++ [8, 0] ++ [0, 0] ++ [20, 0])) =
      .ok (.leConnectionUpdateComplete ⟨.success, ⟨1⟩, ⟨Duration.millis 10, 0, Duration.millis 200⟩⟩) :=
  ⟨by decide, rfl⟩

/-- **C93.** From the third time on the interval stays as it is, if it was at least 10 ms; it is then the largest
multiple of 5 ms that is not above the one reported at first. If it was below 10 ms, the second time at the latest
the host asks for parameters that it would not accept in a report. -/
theorem C93_settles [Nonempty σ] {i : FixedConnectionInterval} (hi : Reported c V i) (l : Link)
    (k : Controller σ E) :
    (10 * ms ≤ i.interval.ns → ∀ n, 3 ≤ n → ∃ j, Rounds c V l k n i j ∧
      j.interval.ns = 5 * ms * (i.interval.ns / (5 * ms))) ∧
    (i.interval.ns < 10 * ms → ∀ n, 2 ≤ n → ¬ ∃ j, Rounds c V l k n i j) := by
  obtain ⟨u, hu, h6, h⟩ := C93_rounds_partial c V hi l k
  constructor
  · intro h10 n hn
    rw [hu] at h10
    have h8 : 8 ≤ u := by simp only [us, ms] at h10; omega
    have e : max (u - n) (4 * (u / 4)) = 4 * (u / 4) := by omega
    have hlt := i.interval.lt
    rw [hu] at hlt
    refine ⟨⟨⟨1250 * us * (4 * (u / 4)), ?_⟩, i.connLatency, i.supervisionTimeout⟩,
      (h n _).mpr ⟨by rw [e], by omega, rfl, rfl⟩, ?_⟩
    · simp only [us] at hlt ⊢; omega
    · rw [hu]
      show 1250 * us * (4 * (u / 4)) = _
      simp only [us, ms]; omega
  · rintro h10 n hn ⟨j, hj⟩
    rw [hu] at h10
    have h8 : u < 8 := by simp only [us, ms] at h10; omega
    have := ((h n j).mp hj).2.1
    omega

/-- The shortest interval, which cannot be asked for again even once, and one of 8.75 ms. -/
example : max (6 - 1) (4 * (6 / 4)) = 5 ∧ max (7 - 2) (4 * (7 / 4)) = 5 ∧ (Duration.micros 8750).ns < 10 * ms ∧
    Event.new ⟨false, false⟩ demoVendor (frame 0x3E (0x03 :: 0 :: [1, 0] ++ [7, 0] ++ [0, 0] ++ [20, 0])) =
      .ok (.leConnectionUpdateComplete ⟨.success, ⟨1⟩, ⟨Duration.micros 8750, 0, Duration.millis 200⟩⟩) :=
  ⟨rfl, rfl, by decide, rfl⟩

/-- **C93, false as stated.** Parameters that are asked for again do not stay as they are. -/
theorem C93_fails [Nonempty σ] (l : Link) (k : Controller σ E) :
    ¬ ∀ i, Reported ⟨false, false⟩ demoVendor i → ∀ n j, Rounds ⟨false, false⟩ demoVendor l k n i j → j = i := by
  intro h
  have hr : Reported ⟨false, false⟩ demoVendor ⟨Duration.micros 13750, 0, Duration.millis 200⟩ :=
    .update (p := frame 0x3E (0x03 :: 0 :: [1, 0] ++ [11, 0] ++ [0, 0] ++ [20, 0]))
      (e := ⟨.success, ⟨1⟩, ⟨Duration.micros 13750, 0, Duration.millis 200⟩⟩) rfl
  have hs := (C93_settles _ _ hr l k).1 (by decide) 3 (Nat.le_refl _)
  obtain ⟨j, hj, hn⟩ := hs
  rw [h _ hr 3 j hj] at hn
  exact absurd hn (by decide)

end Bt
