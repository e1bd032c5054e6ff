import Verif.Spec.Events

/-! # Specification: what decoding forgets -/

namespace Spec

open Bt

/-- Two packets that mean the same: they are equal or differ only in bytes that carry nothing. These are the
parameters of a Command Complete for opcode 0, what follows the status of a status-only reply, what follows
the white list size, the reserved bits of the two local feature replies, and the number of advertising
reports. -/
inductive SameMeaning (c : Cfg) : List UInt8 → List UInt8 → Prop where
  | same {p} : SameMeaning c p p
  | spontaneous {n ps qs} :
      SameMeaning c (frame 0x0E (n :: 0 :: 0 :: ps)) (frame 0x0E (n :: 0 :: 0 :: qs))
  | statusOnly {n o st ps qs} : o ∈ openReturns → o ≠ op 0x08 0x0F →
      SameMeaning c (frame 0x0E (n :: le16 o ++ st :: ps)) (frame 0x0E (n :: le16 o ++ st :: qs))
  | whiteListSize {n st size ps qs} :
      SameMeaning c (frame 0x0E (n :: le16 (op 0x08 0x0F) ++ st :: size :: ps))
        (frame 0x0E (n :: le16 (op 0x08 0x0F) ++ st :: size :: qs))
  | lmpFeatures {n st} {x y : UInt64} : (∀ j, LmpFeatureBit j → x.toNat.testBit j = y.toNat.testBit j) →
      SameMeaning c (frame 0x0E (n :: le16 (op 0x04 0x03) ++ st :: le64 x))
        (frame 0x0E (n :: le16 (op 0x04 0x03) ++ st :: le64 y))
  | leFeatures {n st} {x y : UInt64} : (∀ j, LeFeatureBit c j → x.toNat.testBit j = y.toNat.testBit j) →
      SameMeaning c (frame 0x0E (n :: le16 (op 0x08 0x03) ++ st :: le64 x))
        (frame 0x0E (n :: le16 (op 0x08 0x03) ++ st :: le64 y))
  | reports {n m ps} : SameMeaning c (frame 0x3E (0x02 :: n :: ps)) (frame 0x3E (0x02 :: m :: ps))

/-- The event is not one that a vendor has decoded. (Its status may be a vendor's.) -/
def OfStandard {V : Vendor} : V.Ev → Prop
  | .vendor _ => False
  | .commandComplete ⟨_, .vendor _⟩ => False
  | _ => True

end Spec
