import Verif.Model.Target

/-! # Byte strings of a machine -/

namespace Spec

open Bt

/-- A slice that can exist: no object of Rust is larger than `isize::MAX` bytes, half of what a `usize` counts. -/
def InMemory (t : Target) (bytes : List UInt8) : Prop := bytes.length < 2 ^ (t.bits - 1)

/-- The bytes that an advertisement structure borrows. -/
def borrowed : Advertisement → List UInt8
  | .completeLocalName n => n
  | .serviceData16BitUuid _ b => b
  | .serviceData32BitUuid _ b => b
  | .serviceData128BitUuid _ b => b
  | .manufacturerSpecificData _ b => b

end Spec
