import Verif.Spec.Streams
import Verif.Spec.Controllers

/-! # Specification of executions that never end -/

namespace Spec

open Bt

/-- An execution that never ends: the method `m` is called again and again, the `i`-th time in the state
`before i` with the result `results i`; between two calls anything may happen that receives bytes but does not
hand any out. -/
def Forever {σ ε α : Type} (stream : σ → List UInt8) (taken : σ → Nat) (m : Ctl σ ε α) (before : Nat → σ)
    (results : Nat → Res ε α) : Prop :=
  ∀ i, (m (before i)).1 = results i ∧ stream (m (before i)).2 <+: stream (before (i + 1)) ∧
    taken (before (i + 1)) = taken (m (before i)).2

/-- Among the next `n` calls, those that ask for bytes that have arrived succeed. -/
def ServesNext {σ E : Type} (k : Controller σ E) (stream : σ → List UInt8) (taken : σ → Nat) : Nat → σ → Prop
  | 0, _ => True
  | n + 1, s =>
    (∀ i, i < (pending stream taken s).length → ∃ b, (k.peek i s).1 = .ok b) ∧
    (∀ i, i ≤ (pending stream taken s).length → ∃ got, (k.readInto i s).1 = .ok got) ∧
    (∀ i, ServesNext k stream taken n (k.peek i s).2) ∧
    ∀ i, ServesNext k stream taken n (k.readInto i s).2

/-- Again and again the controller serves `n` calls in a row. -/
def Fair {σ E : Type} (k : Controller σ E) (stream : σ → List UInt8) (taken : σ → Nat) (n : Nat)
    (before : Nat → σ) : Prop :=
  ∀ i, ∃ j, i ≤ j ∧ ServesNext k stream taken n (before j)

/-- The results of the first `n` calls. -/
def firstResults {ρ : Type} (results : Nat → ρ) (n : Nat) : List ρ := (List.range n).map results

/-- The state after `i` calls with nothing in between. -/
def after {σ ε α : Type} (m : Ctl σ ε α) (s : σ) : Nat → σ
  | 0 => s
  | i + 1 => (m (after m s i)).2

/-- A call that fails if it is one of every fourth calls. -/
def fourthFails {α : Type} (call : Ctl Fifo (Nb Unit) α) : Ctl (Fifo × Nat) (Nb Unit) α := fun s =>
  if s.2 % 4 = 3 then (.err (.other ()), (s.1, s.2 + 1))
  else ((call s.1).1, ((call s.1).2, s.2 + 1))

/-- A controller every fourth call of which fails; the second component counts the calls. -/
def wobbly : Controller (Fifo × Nat) Unit where
  write h p := fourthFails (fifo.write h p)
  peek n := fourthFails (fifo.peek n)
  readInto n := fourthFails (fifo.readInto n)

theorem wobbly_delivers : Delivers wobbly (·.1.1) (·.1.2) where
  peek n s r s' h := by
    simp only [wobbly, fourthFails] at h
    split at h
    · obtain ⟨rfl, rfl⟩ := Prod.mk.inj h
      exact ⟨by simp, List.prefix_rfl, rfl, fun b h => by cases h⟩
    · obtain ⟨rfl, rfl⟩ := Prod.mk.inj h
      exact fifo_delivers.peek n s.1 _ _ rfl
  readInto n s r s' h := by
    simp only [wobbly, fourthFails] at h
    split at h
    · obtain ⟨rfl, rfl⟩ := Prod.mk.inj h
      exact ⟨by simp, List.prefix_rfl, fun _ _ => rfl, fun b h => by cases h⟩
    · obtain ⟨rfl, rfl⟩ := Prod.mk.inj h
      exact fifo_delivers.readInto n s.1 _ _ rfl

end Spec
