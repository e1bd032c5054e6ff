/-! # Specification of little-endian byte order -/

namespace Spec

/-- The `n`-byte little-endian representation of `v`: byte `i` has weight `256 ^ i`. -/
def le (n : Nat) (v : Nat) : List UInt8 := (List.range n).map (fun i => UInt8.ofNat (v / 256 ^ i))

/-- Two little-endian bytes of a 16-bit number. -/
def le16 (v : UInt16) : List UInt8 := le 2 v.toNat

/-- Four little-endian bytes of a 32-bit number. -/
def le32 (v : UInt32) : List UInt8 := le 4 v.toNat

/-- Eight little-endian bytes of a 64-bit number. -/
def le64 (v : UInt64) : List UInt8 := le 8 v.toNat

/-- A byte string that is all zero. -/
def zeroes (n : Nat) : List UInt8 := List.replicate n 0

/-- Number denoted by a little-endian byte string. -/
def leVal : List UInt8 → Nat
  | [] => 0
  | b :: bs => b.toNat + 256 * leVal bs

end Spec
