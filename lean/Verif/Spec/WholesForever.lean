import Verif.Spec.Wholes
import Verif.Spec.Forever

/-! # Specification: reasoning with whole packets in endless executions

The two systems of `Spec/Wholes.lean` in executions that never end. -/

namespace Spec

open Bt

variable {X A σ ε α E : Type}

/-! ## Whole packets -/

/-- The application reads the first packet on its way. -/
def World.ReadNow (c : Cfg) (V : Vendor) (note : A → Res V.EvErr V.Ev → A) (s t : World X A) : Prop :=
  ∃ p rest, s.way = p :: rest ∧ t = ⟨s.x, rest, note s.a (Event.new c V p)⟩

/-- Something else happens. -/
def World.ActNow (env : Env X A) (s t : World X A) : Prop :=
  ∃ x new a, env s x new a ∧ (∀ p ∈ new, Framed p) ∧ t = ⟨x, s.way ++ new, a⟩

/-- An endless execution, in which from time to time nothing happens. -/
structure PacketEndless (c : Cfg) (V : Vendor) (init : X → A → Prop) (env : Env X A) (note : A → Res V.EvErr V.Ev → A)
    (s : Nat → World X A) : Prop where
  start : PacketRun c V init env note (s 0)
  step : ∀ i, World.ActNow env (s i) (s (i + 1)) ∨ World.ReadNow c V note (s i) (s (i + 1)) ∨ s (i + 1) = s i

/-- While a packet is on its way, the application reads some time. -/
def PacketsRead (c : Cfg) (V : Vendor) (note : A → Res V.EvErr V.Ev → A) (s : Nat → World X A) : Prop :=
  ∀ i, (s i).way ≠ [] → ∃ j, i ≤ j ∧ World.ReadNow c V note (s j) (s (j + 1))

/-! ## Bytes -/

/-- The application calls `read`, and notes what it reports, unless it reports that there was no packet. -/
def Bytes.CallNow {V : Vendor} (note : A → Res V.EvErr V.Ev → A) (read : Ctl σ ε α)
    (outcome : Res ε α → Option (Res V.EvErr V.Ev)) (s t : Bytes X A σ) : Prop :=
  t = ⟨s.x, s.told, (read s.port).2, ((outcome (read s.port).1).map (note s.a)).getD s.a⟩

/-- Some of the bytes that have been told and are missing arrive. -/
def Bytes.ArriveNow (lead : List UInt8) (stream : σ → List UInt8) (taken : σ → Nat) (s t : Bytes X A σ) : Prop :=
  ∃ port, stream s.port <+: stream port ∧ taken port = taken s.port ∧ stream port <+: transmitted lead s.told ∧
    t = ⟨s.x, s.told, port, s.a⟩

/-- Something else happens. -/
def Bytes.ActNow (env : Env X A) (lead : List UInt8) (taken : σ → Nat) (s t : Bytes X A σ) : Prop :=
  ∃ x new a, env (s.world lead taken) x new a ∧ (∀ p ∈ new, Framed p) ∧ t = ⟨x, s.told ++ new, s.port, a⟩

/-- An endless execution. During a call, too, only bytes arrive that have been told. -/
structure ByteEndless (c : Cfg) (V : Vendor) (init : X → A → Prop) (env : Env X A) (note : A → Res V.EvErr V.Ev → A)
    (lead : List UInt8) (stream : σ → List UInt8) (taken : σ → Nat) (read : Ctl σ ε α)
    (outcome : Res ε α → Option (Res V.EvErr V.Ev)) (s : Nat → Bytes X A σ) : Prop where
  start : ByteRun c V init env note lead stream taken read outcome (s 0)
  step : ∀ i, Bytes.ActNow env lead taken (s i) (s (i + 1)) ∨ Bytes.ArriveNow lead stream taken (s i) (s (i + 1)) ∨
    Bytes.CallNow note read outcome (s i) (s (i + 1)) ∧ stream (s (i + 1)).port <+: transmitted lead (s i).told

/-- What has been told arrives some time; and again and again `read` is called when the transport serves `n` calls in a row,
though it may fail in between as often as it likes. -/
structure BytesFair {V : Vendor} (k : Controller σ E) (n : Nat) (note : A → Res V.EvErr V.Ev → A) (lead : List UInt8)
    (stream : σ → List UInt8) (taken : σ → Nat) (read : Ctl σ ε α) (outcome : Res ε α → Option (Res V.EvErr V.Ev))
    (s : Nat → Bytes X A σ) : Prop where
  arrives : ∀ i, ∃ j, i ≤ j ∧ transmitted lead (s i).told <+: stream (s j).port
  serves : ∀ i, ∃ j, i ≤ j ∧ ServesNext k stream taken n (s j).port ∧ Bytes.CallNow note read outcome (s j) (s (j + 1))

/-! ## The system of C116 as an instance -/

/-- The beginning of C116. -/
abbrev noSecrets : SecretWorld → Ledger → Prop := fun x a => x = (fun _ => false, fun _ => false, []) ∧ a = {}

end Spec
