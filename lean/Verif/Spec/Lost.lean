import Verif.Spec.Mixed

/-! # Specification: a host on a UART that has lost bytes

What is left of a packet whose beginning was lost is in front of the packets that follow. `readAny` with `skipByte` is
an application that takes a byte that begins no event and throws it away. -/

namespace Spec

open Bt

/-- A byte that is no event indicator. -/
def Stray (q : List UInt8) : Prop := ∃ b : UInt8, b ≠ 0x04 ∧ q = [b]

/-- The application takes one byte. -/
def skipByte {σ E : Type} (k : Controller σ E) (_ : UInt8) : Ctl σ (Nb E) (List UInt8) := do
  let got ← k.readInto 1
  pure got.val

/-- The bytes are a sequence of stray bytes and whole events. -/
def Parses (g : List UInt8) : Prop := ∃ xs : List Mixed, (∀ x ∈ xs, x.Good Stray) ∧ mixedBytes xs = g

/-- What is left in front of the packets `ps`, namely `g`, makes the host take a part of them for something else: the
packets `lost`. It finds those after them, `found`. `xs` is what it takes `g` and the lost packets for. -/
structure Recovers (g : List UInt8) (ps : List (List UInt8)) (xs : List Mixed) (lost found : List (List UInt8)) :
    Prop where
  good : ∀ x ∈ xs, x.Good Stray
  split : ps = lost ++ found
  taken : mixedBytes xs = g ++ uartBytes lost

end Spec
