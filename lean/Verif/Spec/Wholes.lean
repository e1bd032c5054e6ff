import Verif.Spec.Damage
import Verif.Spec.Secrets
import Verif.Spec.Streams

/-! # Specification: reasoning with whole packets

Two systems of a controller and an application. In the first one event packets are on their way and `read` takes one of them. In
the second one bytes arrive over a transport, in pieces of any size, and the application calls `read` of the crate at any time.
Otherwise they are the same, and arbitrary: `X` is anything that the controller and the rest of the world have, `A` anything that
the application keeps, `env` says what can happen besides reading, and `note` is what the application does with what it has
read. -/

namespace Spec

open Bt

/-- The packets that the host has not read are `way`. -/
structure World (X A : Type) where
  x : X
  way : List (List UInt8)
  a : A

/-- What can happen besides reading: the state of the world and of the application change, and packets are told. -/
abbrev Env (X A : Type) := World X A → X → List (List UInt8) → A → Prop

/-- The states that can be reached if whole packets are read. -/
inductive PacketRun {X A : Type} (c : Cfg) (V : Vendor) (init : X → A → Prop) (env : Env X A)
    (note : A → Res V.EvErr V.Ev → A) : World X A → Prop where
  | start {x : X} {a : A} : init x a → PacketRun c V init env note ⟨x, [], a⟩
  | acts {s : World X A} {x : X} {new : List (List UInt8)} {a : A} : PacketRun c V init env note s → env s x new a →
      (∀ p ∈ new, Framed p) → PacketRun c V init env note ⟨x, s.way ++ new, a⟩
  | reads {x : X} {p : List UInt8} {rest : List (List UInt8)} {a : A} : PacketRun c V init env note ⟨x, p :: rest, a⟩ →
      PacketRun c V init env note ⟨x, rest, note a (Event.new c V p)⟩

/-- All packets that have been told, and the state of the transport. -/
structure Bytes (X A σ : Type) where
  x : X
  told : List (List UInt8)
  port : σ
  a : A

/-- The packets of which not all bytes are among the first `n` of the transport. -/
def notTaken (lead : List UInt8) : List (List UInt8) → Nat → List (List UInt8)
  | [], _ => []
  | p :: ps, n => if (lead ++ p).length ≤ n then notTaken lead ps (n - (lead ++ p).length) else p :: ps

/-- The same state with whole packets. -/
def Bytes.world {X A σ : Type} (lead : List UInt8) (taken : σ → Nat) (s : Bytes X A σ) : World X A :=
  ⟨s.x, notTaken lead s.told (taken s.port), s.a⟩

/-- The states that can be reached if bytes arrive. In `arrives` and in `calls` any bytes arrive of those that have been told and
are missing. The application notes what `read` reports, unless it reports that there was no packet. -/
inductive ByteRun {X A σ ε α : Type} (c : Cfg) (V : Vendor) (init : X → A → Prop) (env : Env X A)
    (note : A → Res V.EvErr V.Ev → A) (lead : List UInt8) (stream : σ → List UInt8) (taken : σ → Nat) (read : Ctl σ ε α)
    (outcome : Res ε α → Option (Res V.EvErr V.Ev)) : Bytes X A σ → Prop where
  | start {x : X} {a : A} {port : σ} : init x a → stream port = [] → taken port = 0 →
      ByteRun c V init env note lead stream taken read outcome ⟨x, [], port, a⟩
  | acts {s : Bytes X A σ} {x : X} {new : List (List UInt8)} {a : A} :
      ByteRun c V init env note lead stream taken read outcome s → env (s.world lead taken) x new a →
      (∀ p ∈ new, Framed p) → ByteRun c V init env note lead stream taken read outcome ⟨x, s.told ++ new, s.port, a⟩
  | arrives {s : Bytes X A σ} {port : σ} : ByteRun c V init env note lead stream taken read outcome s →
      stream s.port <+: stream port → taken port = taken s.port → stream port <+: transmitted lead s.told →
      ByteRun c V init env note lead stream taken read outcome ⟨s.x, s.told, port, s.a⟩
  | calls {s : Bytes X A σ} {r : Res ε α} {port : σ} : ByteRun c V init env note lead stream taken read outcome s →
      read s.port = (r, port) → stream port <+: transmitted lead s.told →
      ByteRun c V init env note lead stream taken read outcome ⟨s.x, s.told, port, ((outcome r).map (note s.a)).getD s.a⟩

/-! ## The system of C116 as an instance -/

/-- The controller's part of `Secrets`. -/
abbrev SecretWorld := (UInt16 → Bool) × (UInt16 → Bool) × List (UInt16 × Bool)

/-- A state of C116. -/
def World.secrets (w : World SecretWorld Ledger) : Secrets := ⟨w.x.1, w.x.2.1, w.way, w.a, w.x.2.2⟩

/-- The steps of C116 but reading. -/
def secretEnv (c : Cfg) (V : Vendor) (fresh steady known : Prop) : Env SecretWorld Ledger := fun w x new a =>
  Secrets.Step c V fresh steady known w.secrets (World.secrets ⟨x, w.way ++ new, a⟩)

end Spec
