import Verif.Model.Host.Commands

/-! # Values a caller can have

The fields of the interval types are private, so the only values are those returned by the public
constructors. -/

namespace Bt

/-- What the connection interval builder can produce. -/
def Built (x : ConnectionInterval) : Prop := ∃ b : ConnectionIntervalBuilder, b.build = .ok x

/-- `ScanWindow::start_every(interval)?.open_for(window)`. -/
def scanWindow (interval window : Duration) : Res ScanWindowError ScanWindow := do
  let b ← ScanWindow.startEvery interval
  b.openFor window

/-- The scan windows the API can produce. -/
def BuiltScanWindow (x : ScanWindow) : Prop := ∃ i w, scanWindow i w = .ok x

/-- The advertising intervals the API can produce. -/
def BuiltAdv (c : Cfg) (x : AdvertisingInterval) : Prop :=
  ∃ t, (AdvertisingInterval.forType t).build = .ok x ∨
    ∃ lo hi, (AdvertisingInterval.forType t).withRange c lo hi = .ok x

/-- The expected connection lengths the API can produce. -/
def BuiltLength (x : ExpectedConnectionLength) : Prop :=
  ∃ lo hi, ExpectedConnectionLength.new lo hi = .ok x

/-- The calls a caller can make: every interval argument comes from its constructor. -/
def Command.Constructible {VS : Type} (c : Cfg) : Command VS → Prop
  | .leSetAdvertisingParameters p => BuiltAdv c p.advertisingInterval
  | .leSetScanParameters p => BuiltScanWindow p.scanWindow
  | .leCreateConnection p =>
    BuiltScanWindow p.scanWindow ∧ Built p.connInterval ∧ BuiltLength p.expectedConnectionLength
  | .leConnectionUpdate p => Built p.connInterval ∧ BuiltLength p.expectedConnectionLength
  | _ => True

end Bt
