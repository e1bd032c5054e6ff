import Verif.Spec.Bytes
import Verif.Model.Types.Advertisement

/-! # Specification of advertising data: a sequence of length-type-value records

Bluetooth specification, Vol 3, Part C, 11: a record is a length byte `n`, a type byte and `n - 1` bytes of
value. -/

namespace Spec

open Bt

/-- Type byte and value of an advertisement. -/
def adContent : Advertisement → UInt8 × List UInt8
  | .completeLocalName name => (0x09, name)
  | .serviceData16BitUuid u d => (0x16, le16 u ++ d)
  | .serviceData32BitUuid u d => (0x20, le32 u ++ d)
  | .serviceData128BitUuid u d => (0x21, le 16 u.val ++ d)
  | .manufacturerSpecificData u d => (0xff, le16 u ++ d)

/-- Number of bytes of the record of an advertisement: length byte, type byte, value. -/
def adSize (a : Advertisement) : Nat := 2 + (adContent a).2.length

/-- The advertisement with a given type byte and value. -/
def adOfContent (t : UInt8) (v : List UInt8) : Option Advertisement :=
  if t = 0x09 then some (.completeLocalName v)
  else if t = 0x16 ∧ 2 ≤ v.length then
    some (.serviceData16BitUuid (UInt16.ofNat (leVal (v.take 2))) (v.drop 2))
  else if t = 0x20 ∧ 4 ≤ v.length then
    some (.serviceData32BitUuid (UInt32.ofNat (leVal (v.take 4))) (v.drop 4))
  else if t = 0x21 ∧ 16 ≤ v.length then
    some (.serviceData128BitUuid (Fin.ofNat (2 ^ 128) (leVal (v.take 16))) (v.drop 16))
  else if t = 0xff ∧ 2 ≤ v.length then
    some (.manufacturerSpecificData (UInt16.ofNat (leVal (v.take 2))) (v.drop 2))
  else none

/-- Read one record: the type, the value, and the bytes after the record. -/
def readRecord : List UInt8 → Option (UInt8 × List UInt8 × List UInt8)
  | n :: t :: rest =>
    if 1 ≤ n.toNat ∧ n.toNat - 1 ≤ rest.length then
      some (t, rest.take (n.toNat - 1), rest.drop (n.toNat - 1))
    else none
  | _ => none

/-- Read a byte string as a sequence of records, each of which must be a known advertisement. `fuel` bounds
the number of records; `readAds` supplies enough. -/
def readAdsFuel : Nat → List UInt8 → Option (List Advertisement)
  | _, [] => some []
  | 0, _ => none
  | fuel + 1, bs =>
    match readRecord bs with
    | none => none
    | some (t, v, rest) =>
      match adOfContent t v, readAdsFuel fuel rest with
      | some a, some as => some (a :: as)
      | _, _ => none

/-- Read a byte string as a sequence of records. -/
def readAds (bs : List UInt8) : Option (List Advertisement) := readAdsFuel bs.length bs

end Spec
