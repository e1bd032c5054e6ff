import Verif.Spec.Bytes
import Verif.Model.Status

/-! # Specification of device addresses

Bluetooth specification, Vol 6, Part B, 1.3: an address is a 48-bit number, sent least significant byte
first. The two most significant bits of a random address tell its kind. -/

namespace Spec

open Bt

/-- The 48-bit number of an address. -/
def addrNumber (a : BdAddr) : Nat := leVal a.val.val

/-- Static (11) and non-resolvable (00) random addresses: the 46-bit random part is neither all zeros nor
all ones. Resolvable (10) ones: the same for the 22-bit random part of the upper 24 bits. -/
def ValidRandomAddress (a : BdAddr) : Prop :=
  (addrNumber a / 2 ^ 46 = 0 ∨ addrNumber a / 2 ^ 46 = 3) ∧
    addrNumber a % 2 ^ 46 ≠ 0 ∧ addrNumber a % 2 ^ 46 ≠ 2 ^ 46 - 1 ∨
  addrNumber a / 2 ^ 46 = 2 ∧
    addrNumber a / 2 ^ 24 % 2 ^ 22 ≠ 0 ∧ addrNumber a / 2 ^ 24 % 2 ^ 22 ≠ 2 ^ 22 - 1

instance (a : BdAddr) : Decidable (ValidRandomAddress a) := by
  unfold ValidRandomAddress; exact inferInstance

/-- Address type byte (0 public, 1 random) followed by the address. -/
def addrTypeBytes : BdAddrType → List UInt8
  | .pub a => 0 :: a.val.val
  | .random a => 1 :: a.val.val

end Spec
