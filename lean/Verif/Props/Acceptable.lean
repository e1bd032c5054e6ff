import Verif.Lemmas.Acceptable

/-! # C78: which command packets a conforming controller accepts -/

namespace Bt

open Spec

variable {σ E VS : Type}

/-- **C78, false as stated.** Accepted commands with connection handles in the range of the standard can be
written with parameters a conforming controller rejects: a connection interval of 7.5 ms is written as 5 units;
a supervision timeout of 100.5 ms, long enough for an interval of 50 ms, is written as 100 ms, which is not;
and before 5.0 non-connectable advertising every 20 ms is written as such. -/
theorem C78_fails :
    ¬ ∀ (c : Cfg) (cmd : Command Empty), cmd.Constructible c → Expressible c cmd →
      cmdReject (E := Empty) cmd = none → HandlesOk cmd → ∀ op ps,
      (cmd.exec (linkHeader .uart) (recording logController) Empty.elim ([], [])).2.2 =
        [.write (headerBytes .uart op ps.length) ps] → Acceptable c op ps := by
  intro h
  have hx : Built ⟨Duration.millis 50, Duration.millis 50, 0, Duration.micros 100500⟩ :=
    (built_iff _).mpr (by constructor <;> decide)
  have hy : BuiltLength ⟨Duration.millis 10, Duration.millis 20⟩ :=
    ⟨Duration.millis 10, Duration.millis 20, by decide +kernel⟩
  have := h ⟨false, false⟩ (.leConnectionUpdate ⟨⟨1⟩, ⟨Duration.millis 50, Duration.millis 50, 0,
    Duration.micros 100500⟩, ⟨Duration.millis 10, Duration.millis 20⟩⟩) ⟨hx, hy⟩ ⟨trivial, trivial⟩ rfl
    (by show (1 : UInt16).toNat ≤ 0x0EFF; decide) 0x2013 [1, 0, 40, 0, 40, 0, 0, 0, 10, 0, 16, 0, 32, 0]
    (by decide +kernel)
  obtain ⟨-, -, -, -, -, -, -, -, -, -, -, -, h13, -⟩ := this
  exact absurd ((h13 rfl).2.2.2.2.2.2.2.1) (by decide)

/-- The other two kinds of packets that are not acceptable. -/
example : (Command.leConnectionUpdate (VS := Empty) ⟨⟨1⟩, ⟨Duration.micros 7500, Duration.millis 50, 0,
      Duration.secs 1⟩, ⟨Duration.millis 10, Duration.millis 20⟩⟩).exec (linkHeader .uart) logController Empty.elim [] =
      (.ok (), [([1, 0x13, 0x20, 14], [1, 0, 5, 0, 40, 0, 0, 0, 100, 0, 16, 0, 32, 0])]) ∧
    ¬ Acceptable ⟨false, false⟩ 0x2013 [1, 0, 5, 0, 40, 0, 0, 0, 100, 0, 16, 0, 32, 0] ∧
    ¬ Acceptable ⟨false, false⟩ 0x2006 [32, 0, 32, 0, 3, 0, 0, 1, 2, 3, 4, 5, 6, 7, 0] ∧
    Acceptable ⟨false, true⟩ 0x2006 [32, 0, 32, 0, 3, 0, 0, 1, 2, 3, 4, 5, 6, 7, 0] := by
  refine ⟨by decide +kernel, ?_, ?_, ?_⟩
  · rintro ⟨-, -, -, -, -, -, -, -, -, -, -, -, h13, -⟩
    exact absurd (h13 rfl).2.1 (by decide)
  · rintro ⟨-, -, -, -, -, h5, -⟩
    exact absurd ((h5 rfl).2.1 rfl (.inr rfl)) (by decide)
  · refine ⟨rfl, ?_⟩
    simp [RangesOk, OwnAddressAt]
    decide

/-- **C78, the part that holds, exactly.** The packet written by any call that can be written down and is not
rejected is acceptable to a conforming controller exactly if its connection handles are in range and its
intervals are legal when cut off to the units of the wire. Missing: the intervals for which this is not so. -/
theorem C78_exactly_partial (c : Cfg) (l : Link) (k : Controller σ E) (vinto : VS → UInt8) (cmd : Command VS)
    (hc : cmd.Constructible c) (he : Expressible c cmd) (ha : cmdReject (E := E) cmd = none) (s : σ) :
    ∃ op ps, (cmd.exec (linkHeader l) (recording k) vinto (s, [])).2.2 =
        [.write (headerBytes l op ps.length) ps] ∧
      (Acceptable c op ps ↔ HandlesOk cmd ∧ IntervalsOk c cmd) :=
  ⟨_, _, C39_trace c l k vinto cmd hc ha s [], acceptable_iff (E := E) cmd hc he ha⟩

/-- Scan parameters with a filter policy that exists from 4.2 on. -/
example : (Command.leSetScanParameters (VS := Empty) ⟨.active, ⟨Duration.millis 20, Duration.millis 10⟩, .random,
      .addressedToThisDevice⟩).Constructible ⟨true, false⟩ ∧
    Expressible ⟨true, false⟩ (Command.leSetScanParameters (VS := Empty)
      ⟨.active, ⟨Duration.millis 20, Duration.millis 10⟩, .random, .addressedToThisDevice⟩) :=
  ⟨⟨Duration.millis 20, Duration.millis 10, by decide +kernel⟩, trivial, trivial, .inl rfl⟩

/-- **C78.** Commands without intervals, and those with scan windows, advertising intervals for a connectable
or scannable type or from 5.0 on, and connection lengths only: given handles in range, the packet is always
acceptable. -/
theorem C78_other_commands (c : Cfg) (l : Link) (k : Controller σ E) (vinto : VS → UInt8) (cmd : Command VS)
    (hc : cmd.Constructible c) (he : Expressible c cmd) (ha : cmdReject (E := E) cmd = none)
    (hh : HandlesOk cmd) (hn : ∀ p, cmd ≠ .leCreateConnection p) (hu : ∀ p, cmd ≠ .leConnectionUpdate p)
    (hv : ∀ p, cmd = .leSetAdvertisingParameters p → c.v50 = true ∨
      p.advertisingInterval.advertisingType ≠ .nonConnectableUndirected) (s : σ) :
    ∃ op ps, (cmd.exec (linkHeader l) (recording k) vinto (s, [])).2.2 =
        [.write (headerBytes l op ps.length) ps] ∧ Acceptable c op ps := by
  obtain ⟨op, ps, h1, h2⟩ := C78_exactly_partial c l k vinto cmd hc he ha s
  refine ⟨op, ps, h1, h2.mpr ⟨hh, ?_⟩⟩
  cases cmd with
  | leCreateConnection p => exact absurd rfl (hn p)
  | leConnectionUpdate p => exact absurd rfl (hu p)
  | leSetAdvertisingParameters p =>
    intro h5 ht
    rcases hv p rfl with h | h
    · rw [h] at h5
      cases h5
    · exact absurd ht h
  | _ => trivial

example : HandlesOk (Command.disconnect (VS := Empty) ⟨0x0EFF⟩ .authFailure) := by
  show (0x0EFF : UInt16).toNat ≤ 0x0EFF
  decide

end Bt
