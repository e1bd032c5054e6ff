import Verif.Model.BitflagArray

/-! # Specification of flag sets: a byte string is a set of (octet, bit) pairs -/

namespace Spec

open Bt

/-- Bit `j` of octet `i` is set. -/
def HasBit (bs : List UInt8) (i j : Nat) : Prop := ∃ b, bs[i]? = some b ∧ b.toNat.testBit j = true

/-- Bit `j` of octet `i` is declared by a flag of the table that is compiled in configuration `c`. -/
def Declared (c : Cfg) (t : List ArrFlagDecl) (i j : Nat) : Prop :=
  ∃ d ∈ t, d.gate.on c = true ∧ d.octet = i ∧ d.mask.toNat.testBit j = true

/-- The bits of a single flag. -/
def FlagBit (f : BFlag) (i j : Nat) : Prop := i = f.octet ∧ f.mask.toNat.testBit j = true

/-- Bit `j` of a 64-bit mask is declared by a flag of the table that is compiled in configuration `c`. -/
def Declared64 (c : Cfg) (t : List FlagDecl) (j : Nat) : Prop :=
  ∃ d ∈ t, d.gate.on c = true ∧ d.mask.toNat.testBit j = true

end Spec
