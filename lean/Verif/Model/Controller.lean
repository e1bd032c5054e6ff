import Verif.Basic

/-! # The `Controller` trait (`/repo/src/lib.rs` 105-315)

A controller is an arbitrary state type with three operations that may change the state, fail or panic.
Methods of the crate that take `&mut self` are functions of the state. -/

namespace Bt

/-- A method with `&mut self` on a controller with state `σ`, returning `Result<α, ε>`. -/
def Ctl (σ ε α : Type) : Type := σ → Res ε α × σ

namespace Ctl
variable {σ ε ε' α β : Type}

/-- The `?` operator between two steps of a method. -/
def bind (x : Ctl σ ε α) (f : α → Ctl σ ε β) : Ctl σ ε β := fun s =>
  match x s with
  | (.ok a, s') => f a s'
  | (.err e, s') => (.err e, s')
  | (.panic, s') => (.panic, s')

instance : Monad (Ctl σ ε) where
  pure a := fun s => (.ok a, s)
  bind := bind

/-- A step that does not touch the controller. -/
def lift (r : Res ε α) : Ctl σ ε α := fun s => (r, s)

/-- `Result::map_err`. -/
def mapErr (f : ε → ε') (x : Ctl σ ε α) : Ctl σ ε' α := fun s => ((x s).1.mapErr f, (x s).2)

end Ctl

/-- `trait Controller`: lib.rs 105-315. `readInto n` is `read_into` on a buffer of `n` bytes; the result
is the contents of the buffer afterwards. -/
structure Controller (σ E : Type) where
  /-- lib.rs 129 -/
  write : (header payload : List UInt8) → Ctl σ (Nb E) Unit
  /-- lib.rs 228 -/
  readInto : (n : Nat) → Ctl σ (Nb E) (Arr n)
  /-- lib.rs 314 -/
  peek : (n : Nat) → Ctl σ (Nb E) UInt8

end Bt
