import Verif.Model.Types.CommonDataType

/-! # Model of `/repo/src/types/advertisement.rs` -/

namespace Bt

/-- `Advertisement<'a>`: types/advertisement.rs 8-36. A `&str` is represented by its UTF-8 bytes and a
`u128` by a natural number below `2^128`. -/
inductive Advertisement where
  | completeLocalName (name : List UInt8)
  | serviceData16BitUuid (uuid : UInt16) (data : List UInt8)
  | serviceData32BitUuid (uuid : UInt32) (data : List UInt8)
  | serviceData128BitUuid (uuid : Fin (2 ^ 128)) (data : List UInt8)
  | manufacturerSpecificData (id : UInt16) (data : List UInt8)
  deriving DecidableEq, Repr

namespace Advertisement

/-- `Advertisement::len`: types/advertisement.rs 42-50. -/
def len : Advertisement → Nat
  | completeLocalName n => 2 + n.length
  | serviceData16BitUuid _ b => 2 + (2 + b.length)
  | manufacturerSpecificData _ b => 2 + (2 + b.length)
  | serviceData32BitUuid _ b => 2 + (4 + b.length)
  | serviceData128BitUuid _ b => 2 + (16 + b.length)

/-- `Advertisement::get_type`: types/advertisement.rs 53-62. -/
def getType : Advertisement → CommonDataType
  | completeLocalName _ => .completeLocalName
  | serviceData16BitUuid _ _ => .serviceData16BitUuid
  | serviceData32BitUuid _ _ => .serviceData32BitUuid
  | serviceData128BitUuid _ _ => .serviceData128BitUuid
  | manufacturerSpecificData _ _ => .manufacturerSpecificData

/-- `Advertisement::copy_into_slice`: types/advertisement.rs 70-94. Returns the new buffer and the
number of bytes written. -/
def copyIntoSlice {ε : Type} (a : Advertisement) (bytes : List UInt8) :
    Res ε (List UInt8 × Nat) := do
  let len := a.len
  let bytes ← setByte bytes 0 (UInt8.ofNat (len - 1))
  let bytes ← setByte bytes 1 a.getType.asU8
  let bytes ← match a with
    | completeLocalName n => copyRange bytes 2 (2 + n.length) n
    | serviceData16BitUuid u b => do
      let bytes ← withRange bytes 2 bytes.length (fun s => writeU16 s u)
      copyRange bytes 4 (4 + b.length) b
    | manufacturerSpecificData u b => do
      let bytes ← withRange bytes 2 bytes.length (fun s => writeU16 s u)
      copyRange bytes 4 (4 + b.length) b
    | serviceData32BitUuid u b => do
      let bytes ← withRange bytes 2 bytes.length (fun s => writeU32 s u)
      copyRange bytes 6 (6 + b.length) b
    | serviceData128BitUuid u b => do
      let bytes ← withRange bytes 2 bytes.length (fun s => writeU128 s u.val)
      copyRange bytes 18 (18 + b.length) b
  .ok (bytes, len)

end Advertisement

end Bt
