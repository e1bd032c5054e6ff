import Verif.Model.Release
import Verif.Props.IntervalBytes
import Verif.Props.Windows
import Verif.Lemmas.Canonical

/-! # C86: debug and release builds agree -/

namespace Bt
open Spec

variable {ε : Type}

theorem release_interval (d : Duration) (h : d.ns ≤ 4 * sec) :
    ConnectionInterval.intervalAsU16 (ε := ε) d = .ok (Release.intervalAsU16 d) := by
  rw [intervalAsU16_eq d h]
  simp only [sec] at h
  have h1 : d.asSecs ≤ 4 := by unfold Duration.asSecs; omega
  have h2 : d.subsecMillis < 1000 := by unfold Duration.subsecMillis; omega
  unfold Release.intervalAsU16 Release.addU32 Release.mulU64 Release.mulU32 asU32
  rw [Nat.mod_eq_of_lt (a := 800 * d.asSecs) (by omega), Nat.mod_eq_of_lt (a := 4 * d.subsecMillis) (by omega),
    Nat.mod_eq_of_lt (a := 800 * d.asSecs) (by omega), Nat.mod_eq_of_lt (by omega)]
  congr 2
  unfold Duration.asSecs Duration.subsecMillis writtenInterval ms
  omega

theorem release_timeout (d : Duration) (h : d.ns ≤ 32 * sec) :
    ConnectionInterval.timeoutAsU16 (ε := ε) d = .ok (Release.timeoutAsU16 d) := by
  rw [timeoutAsU16_eq d h]
  simp only [sec] at h
  unfold Release.timeoutAsU16 Release.addU32 Release.mulU64 asU32
  congr 2
  unfold units10ms ms
  rw [show d.asSecs = d.ns / 1000000000 from rfl]
  rw [show d.subsecMillis = d.ns % 1000000000 / 1000000 from rfl]
  omega

theorem release_duration (d : Duration) (h : d.ns < 65536 * (625 * us)) :
    ExpectedConnectionLength.durationAsU16 (ε := ε) d = .ok (Release.durationAsU16 d) := by
  rw [ecl_durationAsU16_eq d h]
  simp only [us] at h
  unfold Release.durationAsU16 Release.addU32 Release.mulU32 asU32
  congr 2
  unfold units625us us
  rw [show d.asSecs = d.ns / 1000000000 from rfl]
  rw [show d.subsecMicros = d.ns % 1000000000 / 1000 from rfl]
  omega

/-- **C86**: the builders and parsers return the same in both builds, for all arguments. -/
theorem C86_builders (b : ConnectionIntervalBuilder) (lo hi : Duration) (bytes : List UInt8) :
    Release.buildConnection b = b.build ∧
    Release.newLength lo hi = ExpectedConnectionLength.new lo hi ∧
    Release.connectionFromBytes bytes = ConnectionInterval.fromBytes bytes ∧
    Release.fixedFromBytes bytes = FixedConnectionInterval.fromBytes bytes := by
  have hb : ∀ b : ConnectionIntervalBuilder, Release.buildConnection b = b.build := by
    intro b
    have hl : ∀ l : UInt16, addU32 (ε := ConnectionIntervalError) 1 l.toNat =
        .ok (Release.addU32 1 l.toNat) := by
      intro l
      have := l.toNat_lt
      rw [addU32, if_pos (by omega), Release.addU32, Nat.mod_eq_of_lt (by omega)]
    unfold Release.buildConnection ConnectionIntervalBuilder.build
    simp only [hl, Res.bind_ok]
    rfl
  refine ⟨hb b, ?_, ?_, ?_⟩
  · unfold Release.newLength ExpectedConnectionLength.new
    rw [release_duration _ (by decide)]
    rfl
  · unfold Release.connectionFromBytes ConnectionInterval.fromBytes
    simp only [hb]
  · unfold Release.fixedFromBytes FixedConnectionInterval.fromBytes
    simp only [hb]

/-- A latency at which the sum would be too large for a byte, and the longest connection length. -/
example : Release.addU32 1 499 = 500 ∧
    Release.connectionFromBytes [0x06, 0, 0x08, 0, 0xF3, 0x01, 0x80, 0x0C] =
      ConnectionInterval.fromBytes [0x06, 0, 0x08, 0, 0xF3, 0x01, 0x80, 0x0C] ∧
    ConnectionInterval.fromBytes [0x06, 0, 0x08, 0, 0xF3, 0x01, 0x80, 0x0C] =
      .ok ⟨Duration.micros 7500, Duration.micros 10000, 499, Duration.secs 32⟩ := by decide +kernel

/-- **C86**: every value that the API can produce is written in the same way in both builds, into buffers of
every size. -/
theorem C86_written (bytes : List UInt8) :
    (∀ x : ConnectionInterval, Built x →
      Release.copyConnection (ε := ε) x bytes = x.copyIntoSlice bytes) ∧
    (∀ (c : Cfg) (x : AdvertisingInterval), BuiltAdv c x →
      Release.copyAdvertising (ε := ε) x bytes = x.copyIntoSlice bytes) ∧
    (∀ x : ScanWindow, BuiltScanWindow x →
      Release.copyScanWindow (ε := ε) x bytes = x.copyIntoSlice bytes) ∧
    (∀ x : ExpectedConnectionLength, BuiltLength x →
      Release.copyLength (ε := ε) x bytes = x.copyIntoSlice bytes) := by
  refine ⟨fun x hx => ?_, fun c x hx => ?_, fun x hx => ?_, fun x hx => ?_⟩
  · have h := (built_iff x).mp hx
    have := h.order
    have := h.maxBound
    unfold Release.copyConnection ConnectionInterval.copyIntoSlice
    rw [release_interval x.intervalMin (by omega), release_interval x.intervalMax (by omega),
      release_timeout _ h.timeoutHigh]
    rfl
  · obtain ⟨-, h2, h3⟩ := hx.bounds
    have e1 : AdvertisingInterval.durationAsU16 (ε := ε) x.min = _ :=
      release_duration x.min (by simp only [us, ms] at *; omega)
    have e2 : AdvertisingInterval.durationAsU16 (ε := ε) x.max = _ :=
      release_duration x.max (by simp only [us, ms] at *; omega)
    unfold Release.copyAdvertising AdvertisingInterval.copyIntoSlice
    rw [e1, e2]
    rfl
  · obtain ⟨h1, h2⟩ := hx.bounds
    have e1 : ScanWindow.durationAsU16 (ε := ε) x.intervalWidth = _ := release_duration _ h1
    have e2 : ScanWindow.durationAsU16 (ε := ε) x.windowWidth = _ := release_duration _ h2
    unfold Release.copyScanWindow ScanWindow.copyIntoSlice
    rw [e1, e2]
    rfl
  · obtain ⟨h1, h2⟩ := hx.bounds
    unfold Release.copyLength ExpectedConnectionLength.copyIntoSlice
    rw [release_duration _ h1, release_duration _ h2]
    rfl

/-- On values that were not checked the builds differ: 2^60 seconds. -/
example : ConnectionInterval.intervalAsU16 (ε := Empty) (Duration.secs (2 ^ 60)) = .panic ∧
    Release.intervalAsU16 (Duration.secs (2 ^ 60)) = 0 := by decide +kernel

example : Release.copyConnection (ε := Empty)
    ⟨Duration.millis 50, Duration.millis 500, 10, Duration.secs 12⟩ (List.replicate 8 0xFF) =
      .ok [0x28, 0, 0x90, 1, 10, 0, 0xB0, 4] := by decide +kernel

example : Built ⟨Duration.millis 50, Duration.millis 500, 10, Duration.secs 12⟩ :=
  (built_iff _).mpr (by constructor <;> decide)

end Bt
