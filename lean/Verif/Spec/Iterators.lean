import Verif.Basic

/-! # Calling an iterator -/

namespace Spec

open Bt

/-- The results of `n` calls of `next`, one after the other, beginning in state `s`. -/
def calls {ε α σ : Type} (next : σ → Res ε (Option α × σ)) : Nat → σ → Res ε (List (Option α))
  | 0, _ => .ok []
  | n + 1, s =>
    match next s with
    | .ok (o, s') =>
      match calls next n s' with
      | .ok os => .ok (o :: os)
      | .err e => .err e
      | .panic => .panic
    | .err e => .err e
    | .panic => .panic

/-- The results of `n` calls on an iterator over `xs`: the items in order, then `None` for ever. -/
def fusedCalls {α : Type} (xs : List α) (n : Nat) : List (Option α) := (List.range n).map (xs[·]?)

end Spec
