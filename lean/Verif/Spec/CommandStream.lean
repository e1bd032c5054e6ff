import Verif.Spec.Commands
import Verif.Spec.Constructible

/-! # Specification of command streams, command logs and wire equality of commands -/

namespace Spec

open Bt

/-! ## Observing a controller -/

/-- An operation performed on a controller. -/
inductive CtlOp where
  | write (header payload : List UInt8)
  | readInto (n : Nat)
  | peek (n : Nat)
  deriving DecidableEq, Repr

/-- The controller `k` with a log of the operations performed on it. -/
def recording {σ E : Type} (k : Controller σ E) : Controller (σ × List CtlOp) E where
  write h p := fun s => ((k.write h p s.1).1, ((k.write h p s.1).2, s.2 ++ [.write h p]))
  readInto n := fun s => ((k.readInto n s.1).1, ((k.readInto n s.1).2, s.2 ++ [.readInto n]))
  peek n := fun s => ((k.peek n s.1).1, ((k.peek n s.1).2, s.2 ++ [.peek n]))

/-- What `Controller::write` promises, for the bytes `sent` so far: all or nothing, no panic. -/
structure WritesAtomically {σ E : Type} (k : Controller σ E) (sent : σ → List UInt8) : Prop where
  ok : ∀ h p s, (k.write h p s).1 = .ok () → sent (k.write h p s).2 = sent s ++ (h ++ p)
  err : ∀ h p s e, (k.write h p s).1 = .err e → sent (k.write h p s).2 = sent s
  noPanic : ∀ h p s, (k.write h p s).1 ≠ .panic

/-- Run a list of methods one after the other, whatever each one returns. -/
def runAll {σ ε : Type} : List (Ctl σ ε Unit) → σ → List (Res ε Unit) × σ
  | [], s => ([], s)
  | m :: ms, s => ((m s).1 :: (runAll ms (m s).2).1, (runAll ms (m s).2).2)

/-- Repeating a method until it returns something other than `WouldBlock`: `nb::block!`. -/
inductive Retry {σ E : Type} (m : Ctl σ (Nb E) Unit) : σ → Res (Nb E) Unit → σ → Prop where
  | done (s r s') : m s = (r, s') → r ≠ .err .wouldBlock → Retry m s r s'
  | again (s s₁ r s') : m s = (.err .wouldBlock, s₁) → Retry m s₁ r s' → Retry m s r s'

/-! ## Parsing commands -/

/-- Parse a UART byte stream into command packets (opcode, parameters). -/
def parseFuel : Nat → List UInt8 → Option (List (UInt16 × List UInt8))
  | _, [] => some []
  | fuel + 1, ind :: a :: b :: n :: rest =>
    if ind = 0x01 ∧ n.toNat ≤ rest.length then
      (parseFuel fuel (rest.drop n.toNat)).map
        ((UInt16.ofNat (leVal [a, b]), rest.take n.toNat) :: ·)
    else none
  | _, _ => none

/-- Every packet has at least one byte, so the length of the stream is enough fuel. -/
def parseCommands (bs : List UInt8) : Option (List (UInt16 × List UInt8)) := parseFuel bs.length bs

/-! ## Commands that cannot be distinguished on the wire -/

/-- Round a duration down to a multiple of `unit`. -/
def floorTo (unit : Nat) (d : Duration) : Duration :=
  ⟨d.ns / unit * unit, Nat.lt_of_le_of_lt (Nat.div_mul_le_self _ _) d.lt⟩

theorem floorInterval_le (n : Nat) : (5 * writtenInterval n + 3) / 4 * ms ≤ n := by
  simp only [writtenInterval, ms]
  omega

/-- The shortest connection interval written like `d`. -/
def floorInterval (d : Duration) : Duration :=
  ⟨(5 * writtenInterval d.ns + 3) / 4 * ms, Nat.lt_of_le_of_lt (floorInterval_le d.ns) d.lt⟩

/-- Round all durations of a connection interval. -/
def floorConn (x : ConnectionInterval) : ConnectionInterval :=
  ⟨floorInterval x.intervalMin, floorInterval x.intervalMax, x.connLatency,
    floorTo (10 * ms) x.supervisionTimeout⟩

/-- Round both durations of a scan window. -/
def floorWindow (x : ScanWindow) : ScanWindow :=
  ⟨floorTo (625 * us) x.intervalWidth, floorTo (625 * us) x.windowWidth⟩

/-- Round both durations of an expected connection length. -/
def floorLength (x : ExpectedConnectionLength) : ExpectedConnectionLength :=
  ⟨floorTo (625 * us) x.min, floorTo (625 * us) x.max⟩

/-- Round both durations; they do not matter for high duty cycle directed advertising. -/
def floorAdv (x : AdvertisingInterval) : AdvertisingInterval :=
  if x.advertisingType = .connectableDirectedHighDutyCycle then
    ⟨⟨0, by decide⟩, ⟨0, by decide⟩, x.advertisingType⟩
  else ⟨floorTo (625 * us) x.min, floorTo (625 * us) x.max, x.advertisingType⟩

/-- The command with its durations rounded to the units of the wire, with the peer address of Create
Connection cleared when the white list is used (documented as ignored), and with the two names of the
same command (`le_set_advertise_enable`, renamed in version 5.0) identified. -/
def canonical {VS : Type} : Command VS → Command VS
  | .leSetAdvertisingParameters p =>
    .leSetAdvertisingParameters { p with advertisingInterval := floorAdv p.advertisingInterval }
  | .leSetAdvertisingEnable b => .leSetAdvertiseEnable b
  | .leSetScanParameters p => .leSetScanParameters { p with scanWindow := floorWindow p.scanWindow }
  | .leCreateConnection p =>
    .leCreateConnection { p with
      scanWindow := floorWindow p.scanWindow
      peerAddress := if p.initiatorFilterPolicy = .whiteList then
        .publicDeviceAddress ⟨Arr.zero 6⟩ else p.peerAddress
      connInterval := floorConn p.connInterval
      expectedConnectionLength := floorLength p.expectedConnectionLength }
  | .leConnectionUpdate p =>
    .leConnectionUpdate { p with
      connInterval := floorConn p.connInterval
      expectedConnectionLength := floorLength p.expectedConnectionLength }
  | cmd => cmd

end Spec
