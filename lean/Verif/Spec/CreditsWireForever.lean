import Verif.Spec.CreditsWire
import Verif.Spec.CreditsForever
import Verif.Spec.Forever

/-! # Specification: endless traffic over a stream of bytes

The setting of `Spec/CreditsWire.lean`, in an execution that never ends. -/

namespace Spec

open Bt

variable {σ ε α E : Type}

/-- An endless execution, from a state that can be reached. -/
structure Wired.Endless (c : Cfg) (V : Vendor) (N : Nat) (fresh : Prop) (lead : List UInt8)
    (stream : σ → List UInt8) (taken : σ → Nat) (read : Ctl σ ε α) (outcome : Res ε α → Option (Res V.EvErr V.Ev))
    (s : Nat → Wired σ) : Prop where
  start : Wired.Reached c V N fresh lead stream taken read outcome (s 0)
  step : ∀ i, Wired.Step c V N fresh lead stream taken read outcome (s i) (s (i + 1))

/-- The application calls `read`, and notes the outcome, if there is one. -/
def Wired.CalledNow {V : Vendor} (read : Ctl σ ε α) (outcome : Res ε α → Option (Res V.EvErr V.Ev)) (s t : Wired σ) : Prop :=
  t = { s with
    port := (read s.port).2
    account := match outcome (read s.port).1 with
      | some o => s.account.note o
      | none => s.account }

/-- What has been told arrives some time; and again and again `read` is called when the transport serves `n` calls in a row,
though it may fail in between as often as it likes. -/
structure Wired.FairPort {V : Vendor} (k : Controller σ E) (n : Nat) (lead : List UInt8) (stream : σ → List UInt8)
    (taken : σ → Nat) (read : Ctl σ ε α) (outcome : Res ε α → Option (Res V.EvErr V.Ev)) (s : Nat → Wired σ) : Prop where
  arrives : ∀ i, ∃ j, i ≤ j ∧ noticeBytes lead (s i).told <+: stream (s j).port
  serves : ∀ i, ∃ j, i ≤ j ∧ ServesNext k stream taken n (s j).port ∧ Wired.CalledNow read outcome (s j) (s (j + 1))

/-- While packets of a connection are in the buffers, the controller some time frees a buffer of this connection. -/
def Wired.KeepsFreeing (s : Nat → Wired σ) : Prop :=
  ∀ i h, 0 < (s i).buffer h → ∃ j, i ≤ j ∧ (s (j + 1)).buffer h < (s j).buffer h

end Spec
