import Verif.Model.BitflagArray
import Verif.Spec.Controllers

/-! # The examples of the documentation, run on the model

Those with an outcome; the example of `Controller::peek` (lib.rs 237-313) is `Model/DocExample.lean`. These are tests of
the transcription, not proofs of properties. -/

namespace Bt.Conformance

open Spec

/-- `bitflag_array!`, the table of flags: bitflag_array.rs 19-35. -/
private def letters : List ArrFlagDecl :=
  [⟨"ALPHA", .always, 0, 0x01⟩, ⟨"BETA", .always, 0, 0x02⟩, ⟨"THETA", .always, 1, 0x01⟩, ⟨"OMEGA", .always, 2, 0x80⟩]

private def flag (d : ArrFlagDecl) : BFlag := ⟨d.octet, d.mask⟩

/-- `bitflag_array!`, the operations: bitflag_array.rs 38-59. -/
example : (do
    let set ← BFlags.flagOr (ε := Empty) 3 (flag letters[0]) (flag letters[1])
    let set ← set.orAssign (flag letters[2])
    let omega ← set.isSet (flag letters[3])
    let other ← BFlags.flagOr 3 (flag letters[1]) (flag letters[2])
    .ok (set.bits, set.isEmpty, omega, set.contains other)) = .ok ([0x03, 0x01, 0x00], false, false, true) := by
  decide +kernel

private def sending : Fifo := ([0x12, 0x34, 0x56, 0x78, 0x9A, 0xBC, 0xDE, 0xF0], 0)

/-- `Controller::read_into`: lib.rs 139-227. The queue that the theorems on reading take as an example of a controller
does what the documentation asks for, up to `WouldBlock` for more than is there. -/
example : (fifo.readInto 3 sending).1 = .ok ⟨[0x12, 0x34, 0x56], rfl⟩ ∧
    (fifo.readInto 4 (fifo.readInto 3 sending).2).1 = .ok ⟨[0x78, 0x9A, 0xBC, 0xDE], rfl⟩ ∧
    (fifo.readInto 2 (fifo.readInto 4 (fifo.readInto 3 sending).2).2).1 = .err .wouldBlock ∧
    (fifo.readInto 1 (fifo.readInto 4 (fifo.readInto 3 sending).2).2).1 = .ok ⟨[0xF0], rfl⟩ := by
  decide +kernel

end Bt.Conformance
