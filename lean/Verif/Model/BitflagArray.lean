import Verif.Basic
import Verif.Model.Flags

/-! # Model of the `bitflag_array!` macro (`/repo/src/bitflag_array.rs`)

The macro generates, for a table of flags and a size, the types `$flag` and `$flags` and their
operations.  The model is generic in the table and the size; the two instances of the crate are at the
end of the file. -/

namespace Bt

variable {ε : Type} {n : Nat}

/-- `struct $flag { octet: usize, mask: u8 }`: bitflag_array.rs 77-80. -/
structure BFlag where
  octet : Nat
  mask : UInt8
  deriving DecidableEq, Repr

/-- `struct $flags([u8; $size])`: bitflag_array.rs 72. -/
structure BFlags (n : Nat) where
  arr : Arr n
  deriving DecidableEq, Repr

/-- `a[octet] |= mask`. -/
def orByte (a : Arr n) (octet : Nat) (mask : UInt8) : Res ε (Arr n) :=
  if h : octet < n then
    .ok ⟨a.val.set octet (a.val[octet]'(by rw [a.len]; exact h) ||| mask), by simp [a.len]⟩
  else .panic

/-- A loop `for i in is { if !p(i) { return false } } true` whose body can panic. -/
def loopAll : List Nat → (Nat → Res ε Bool) → Res ε Bool
  | [], _ => .ok true
  | i :: is, p => do
    let b ← p i
    if b then loopAll is p else .ok false

namespace BFlags

/-- `$flags::empty()`: bitflag_array.rs 134-136. -/
def empty (n : Nat) : BFlags n := ⟨Arr.zero n⟩

/-- `bits[$octet] |= $mask` for each compiled flag in turn: bitflag_array.rs 124-129. -/
def allLoop (c : Cfg) : List ArrFlagDecl → Arr n → Res ε (Arr n)
  | [], a => .ok a
  | d :: ds, a =>
    if d.gate.on c then do
      let a ← orByte a d.octet d.mask
      allLoop c ds a
    else allLoop c ds a

/-- `$flags::all()`: bitflag_array.rs 122-131. -/
def all (c : Cfg) (t : List ArrFlagDecl) (n : Nat) : Res ε (BFlags n) := do
  let a ← allLoop c t (Arr.zero n)
  .ok ⟨a⟩

/-- `$flags::bits(&self)`: bitflag_array.rs 139-141. -/
def bits (f : BFlags n) : List UInt8 := f.arr.val

/-- `$flags::from_bits(bits)`: bitflag_array.rs 93-109. -/
def fromBits (c : Cfg) (t : List ArrFlagDecl) (n : Nat) (bits : List UInt8) :
    Res ε (Option (BFlags n)) := do
  Res.assert (bits.length == n)
  let allFlags ← all c t n
  let allBits := allFlags.bits
  let good ← loopAll (List.range n) (fun i => do
    let provided ← idx bits i
    let allowed ← idx allBits i
    .ok ((provided &&& ~~~ allowed) == 0))
  if good then do
    let a ← toArr n bits
    .ok (some ⟨a⟩)
  else .ok none

/-- `$flags::copy_into_slice(&self, bytes)`: bitflag_array.rs 113-116. -/
def copyIntoSlice (f : BFlags n) (bytes : List UInt8) : Res ε (List UInt8) := do
  Res.assert (f.arr.val.length == bytes.length)
  copyRange bytes 0 bytes.length f.arr.val

/-- `$flags::is_empty(&self)`: bitflag_array.rs 144-146. -/
def isEmpty (f : BFlags n) : Bool := f.arr.val.all (fun x => x == 0)

/-- `$flags::is_set(&self, flag)`: bitflag_array.rs 149-151. -/
def isSet (f : BFlags n) (flag : BFlag) : Res ε Bool := do
  let b ← idx f.arr.val flag.octet
  .ok ((b &&& flag.mask) != 0)

/-- `$flags::contains(&self, flags)`: bitflag_array.rs 154-159. -/
def contains (f g : BFlags n) : Bool :=
  (f.arr.val.zip g.arr.val).all (fun p => (p.1 &&& p.2) == p.2)

/-- `BitOrAssign<$flag> for $flags`: bitflag_array.rs 184-188. -/
def orAssign (f : BFlags n) (rhs : BFlag) : Res ε (BFlags n) := do
  let a ← orByte f.arr rhs.octet rhs.mask
  .ok ⟨a⟩

/-- `BitOr<$flag> for $flags`: bitflag_array.rs 174-182. -/
def or (f : BFlags n) (rhs : BFlag) : Res ε (BFlags n) := orAssign f rhs

/-- `BitOr for $flag`: bitflag_array.rs 162-172. -/
def flagOr (n : Nat) (lhs rhs : BFlag) : Res ε (BFlags n) := do
  let a ← orByte (Arr.zero n) lhs.octet lhs.mask
  let a ← orByte a rhs.octet rhs.mask
  .ok ⟨a⟩

/-- `PartialEq<$flag> for $flags`: bitflag_array.rs 190-204. -/
def eqFlag (f : BFlags n) (rhs : BFlag) : Res ε Bool :=
  loopAll (List.range n) (fun i => do
    let b ← idx f.arr.val i
    if i = rhs.octet then .ok (b == rhs.mask) else .ok (b == 0))

/-- `PartialEq for $flags`: bitflag_array.rs 206-210. -/
def eq (f g : BFlags n) : Bool := (f.arr.val.zip g.arr.val).all (fun p => p.1 == p.2)

/-- `From<$flag> for $flags`: bitflag_array.rs 212-219. -/
def fromFlag (n : Nat) (value : BFlag) : Res ε (BFlags n) :=
  if h : value.octet < n then
    .ok ⟨⟨(Arr.zero n).val.set value.octet value.mask, by simp [(Arr.zero n).len]⟩⟩
  else .panic

end BFlags

/-- `COMMAND_FLAGS_SIZE`: event/command.rs 424. -/
def COMMAND_FLAGS_SIZE : Nat := 64

/-- `ChannelClassification`: lib.rs 817-900. -/
abbrev ChannelClassification := BFlags 5

/-- `CommandFlags`: event/command.rs 426-1038. -/
abbrev CommandFlags := BFlags COMMAND_FLAGS_SIZE

end Bt
