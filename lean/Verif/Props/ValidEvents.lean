import Verif.Lemmas.ValidEvents
import Verif.Lemmas.Streams
import Verif.Spec.Controllers

/-! # C75: the events an application can be given -/

namespace Bt

open Spec

variable {c : Cfg} {V : Vendor}

/-- **C75.** The events that come out of the decoder are exactly the valid ones. -/
theorem C75_exactly (e : V.Ev) : (∃ p, Event.new c V p = .ok e) ↔ ValidEvent c V e := by
  constructor
  · rintro ⟨p, hp⟩
    obtain ⟨code, ps, -, hl, h⟩ := (C09_sound_and_complete c V _ _).mp hp
    exact says_valid hl h
  · intro h
    obtain ⟨code, ps, hl, h⟩ := valid_says h
    exact ⟨_, (C09_sound_and_complete c V _ _).mpr ⟨code, ps, rfl, hl, h⟩⟩

/-- The two names of the reply to LE Set Advertising Enable: one for each version. -/
example : ValidEvent ⟨false, true⟩ demoVendor (.commandComplete ⟨1, .leSetAdvertisingEnable (.vendor (0x90 : UInt8))⟩) ∧
    ¬ ∃ p, Event.new ⟨false, true⟩ demoVendor p =
      .ok (.commandComplete ⟨1, .leSetAdvertiseEnable (.vendor (0x90 : UInt8))⟩) := by
  constructor
  · exact ⟨rfl, 0x90, by decide, rfl⟩
  · rw [C75_exactly]
    intro h
    cases h.1

/-- A supervision timeout that is off the grid of 10 ms. -/
example : ¬ ∃ p, Event.new ⟨false, false⟩ demoVendor p =
    .ok (.leConnectionUpdateComplete ⟨.success, ⟨1⟩, ⟨⟨7500 * us, by decide⟩, 0, ⟨105 * ms, by decide⟩⟩⟩) := by
  rw [C75_exactly]
  intro h
  exact absurd h.2.2.1 (by decide)

/-- **C75** (`uart`). Whatever the controller does, an application is given valid events only. -/
theorem C75_uart {σ E : Type} (k : Controller σ E) (s s' : σ) (e : V.Ev)
    (h : Uart.read c V k s = (.ok (.event e), s')) : ValidEvent c V e := by
  rw [uartRead_eq] at h
  repeat' split at h
  all_goals try (simp only [Prod.mk.injEq, reduceCtorEq, false_and] at h; done)
  rename_i got _ _
  have h := (Prod.mk.inj h).1
  cases hn : Event.new c V (got.val.drop 1) with
  | ok e' =>
    rw [hn] at h
    obtain rfl : e' = e := by simpa [uartResult] using h
    exact (C75_exactly _).mp ⟨_, hn⟩
  | err x => rw [hn] at h; cases h
  | panic => rw [hn] at h; cases h

/-- A controller with a Hardware Error event. -/
example : Uart.read ⟨false, false⟩ demoVendor fifo ([0x04, 0x10, 0x01, 0x2A], 0) =
    (.ok (.event (.hardwareError ⟨0x2A⟩)), ([0x04, 0x10, 0x01, 0x2A], 4)) := by
  rw [uartRead_eq]; rfl

/-- **C75** (`event_link`). Whatever the controller does, an application is given valid events only. -/
theorem C75_event_link {σ E : Type} (k : Controller σ E) (s s' : σ) (e : V.Ev)
    (h : EventLink.read c V k s = (.ok e, s')) : ValidEvent c V e := by
  rw [linkRead_eq] at h
  repeat' split at h
  all_goals try (simp only [Prod.mk.injEq, reduceCtorEq, false_and] at h; done)
  rename_i got _ _
  have h := (Prod.mk.inj h).1
  cases hn : Event.new c V got.val with
  | ok e' =>
    rw [hn] at h
    obtain rfl : e' = e := by simpa [linkResult] using h
    exact (C75_exactly _).mp ⟨_, hn⟩
  | err x => rw [hn] at h; cases h
  | panic => rw [hn] at h; cases h

/-- A controller with a Hardware Error event. -/
example : EventLink.read ⟨false, false⟩ demoVendor fifo ([0x10, 0x01, 0x2A], 0) =
    (.ok (.hardwareError ⟨0x2A⟩), ([0x10, 0x01, 0x2A], 3)) := by
  rw [linkRead_eq]; rfl

end Bt
