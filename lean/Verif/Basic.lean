/-!
# Basic vocabulary shared by the whole model

Results that can also be panics, Rust slices, little-endian integers and mutable byte buffers.
Nothing here is specific to one source file of `/repo`; it models the Rust core library and the
`byteorder` crate by their documented behaviour.
-/

namespace Bt

/-- Outcome of a Rust function returning `Result<α, ε>`: `Ok`, `Err`, or a panic (slice index out of
bounds, failed `assert!`, `unwrap` of an error, arithmetic overflow in a debug build). -/
inductive Res (ε α : Type) where
  | ok (a : α)
  | err (e : ε)
  | panic
  deriving DecidableEq, Repr

namespace Res

variable {ε ε' α β : Type}

/-- The `?` operator: errors and panics leave the function. -/
def bind (x : Res ε α) (f : α → Res ε β) : Res ε β :=
  match x with
  | ok a => f a
  | err e => err e
  | panic => panic

instance : Monad (Res ε) where
  pure := ok
  bind := bind

/-- `Result::map_err`. -/
def mapErr (f : ε → ε') : Res ε α → Res ε' α
  | ok a => ok a
  | err e => err (f e)
  | panic => panic

/-- `Result::map`. -/
def mapOk (f : α → β) : Res ε α → Res ε β
  | ok a => ok (f a)
  | err e => err e
  | panic => panic

/-- `Result::unwrap`: an error becomes a panic. -/
def unwrap : Res ε α → Res ε' α
  | ok a => ok a
  | err _ => panic
  | panic => panic

/-- `assert!(c)`. -/
def assert (c : Bool) : Res ε Unit := if c then ok () else panic

@[simp] theorem pure_eq (a : α) : (pure a : Res ε α) = ok a := rfl
@[simp] theorem bind_ok (a : α) (f : α → Res ε β) : (ok a >>= f) = f a := rfl
@[simp] theorem bind_err (e : ε) (f : α → Res ε β) : (err e >>= f) = err e := rfl
@[simp] theorem bind_panic (f : α → Res ε β) : ((panic : Res ε α) >>= f) = panic := rfl
@[simp] theorem mapErr_ok (f : ε → ε') (a : α) : (ok a).mapErr f = ok a := rfl
@[simp] theorem mapErr_err (f : ε → ε') (e : ε) : (err e : Res ε α).mapErr f = err (f e) := rfl
@[simp] theorem mapErr_panic (f : ε → ε') : (panic : Res ε α).mapErr f = panic := rfl
@[simp] theorem mapOk_ok (f : α → β) (a : α) : (ok a : Res ε α).mapOk f = ok (f a) := rfl
@[simp] theorem mapOk_err (f : α → β) (e : ε) : (err e : Res ε α).mapOk f = err e := rfl
@[simp] theorem mapOk_panic (f : α → β) : (panic : Res ε α).mapOk f = panic := rfl
@[simp] theorem unwrap_ok (a : α) : (ok a : Res ε α).unwrap (ε' := ε') = ok a := rfl
@[simp] theorem unwrap_err (e : ε) : (err e : Res ε α).unwrap (ε' := ε') = panic := rfl
@[simp] theorem unwrap_panic : (panic : Res ε α).unwrap (ε' := ε') = panic := rfl
@[simp] theorem assert_true : (assert true : Res ε Unit) = ok () := rfl
@[simp] theorem assert_false : (assert false : Res ε Unit) = panic := rfl

end Res

/-- A Rust array `[u8; n]`. -/
structure Arr (n : Nat) where
  val : List UInt8
  len : val.length = n
  deriving DecidableEq, Repr

theorem Arr.ext' {n : Nat} {a b : Arr n} (h : a.val = b.val) : a = b := by
  cases a; cases b; cases h; rfl

/-- `[0; n]`. -/
def Arr.zero (n : Nat) : Arr n := ⟨List.replicate n 0, by simp⟩

/-! ## Slices -/

section Slices
variable {ε : Type}

/-- `bs[i]`. -/
def idx (bs : List UInt8) (i : Nat) : Res ε UInt8 :=
  match bs[i]? with
  | some b => .ok b
  | none => .panic

/-- `&bs[a..]`. -/
def sliceFrom (bs : List UInt8) (a : Nat) : Res ε (List UInt8) :=
  if a ≤ bs.length then .ok (bs.drop a) else .panic

/-- `&bs[a..b]`. -/
def slice (bs : List UInt8) (a b : Nat) : Res ε (List UInt8) :=
  if a ≤ b ∧ b ≤ bs.length then .ok ((bs.take b).drop a) else .panic

/-- `let mut d = [0; n]; d.copy_from_slice(bs)`: panics unless the lengths agree. -/
def toArr (n : Nat) (bs : List UInt8) : Res ε (Arr n) :=
  if h : bs.length = n then .ok ⟨bs, h⟩ else .panic

/-! ## Little-endian integers (`byteorder::LittleEndian`) -/

/-- Value of a little-endian byte string. -/
def leNat : List UInt8 → Nat
  | [] => 0
  | b :: bs => b.toNat + 256 * leNat bs

/-- The `n` low-order bytes of `v`, least significant first. -/
def leBytes : Nat → Nat → List UInt8
  | 0, _ => []
  | n + 1, v => UInt8.ofNat v :: leBytes n (v / 256)

/-- `LittleEndian::read_u16(bs)`: reads the first two bytes, panics if there are fewer. -/
def readU16 (bs : List UInt8) : Res ε UInt16 :=
  if 2 ≤ bs.length then .ok (UInt16.ofNat (leNat (bs.take 2))) else .panic

/-- `LittleEndian::read_u64(bs)`. -/
def readU64 (bs : List UInt8) : Res ε UInt64 :=
  if 8 ≤ bs.length then .ok (UInt64.ofNat (leNat (bs.take 8))) else .panic

/-! ## Mutable buffers

A `&mut [u8]` argument is a list of bytes; the functions return the new contents. -/

/-- `buf[i] = b`. -/
def setByte (buf : List UInt8) (i : Nat) (b : UInt8) : Res ε (List UInt8) :=
  if i < buf.length then .ok (buf.set i b) else .panic

/-- Overwrite `src.length` bytes of `buf` from offset `a`; used by the operations below only. -/
def splice (buf : List UInt8) (a : Nat) (src : List UInt8) : List UInt8 :=
  buf.take a ++ src ++ buf.drop (a + src.length)

/-- `buf[a..b].copy_from_slice(src)`: panics unless the range is valid and the lengths agree. -/
def copyRange (buf : List UInt8) (a b : Nat) (src : List UInt8) : Res ε (List UInt8) :=
  if a ≤ b ∧ b ≤ buf.length ∧ src.length = b - a then .ok (splice buf a src) else .panic

/-- `f(&mut buf[a..b])` for a function that overwrites the sub-slice: panics unless the range is valid;
the result of `f` replaces the sub-slice. -/
def withRange (buf : List UInt8) (a b : Nat)
    (f : List UInt8 → Res ε (List UInt8)) : Res ε (List UInt8) :=
  if a ≤ b ∧ b ≤ buf.length then do
    let sub ← f ((buf.take b).drop a)
    .ok (buf.take a ++ sub ++ buf.drop b)
  else .panic

/-- `LittleEndian::write_u16(buf, v)`: writes the first two bytes, panics if there are fewer. -/
def writeU16 (buf : List UInt8) (v : UInt16) : Res ε (List UInt8) :=
  if 2 ≤ buf.length then .ok (leBytes 2 v.toNat ++ buf.drop 2) else .panic

/-- `LittleEndian::write_u32(buf, v)`. -/
def writeU32 (buf : List UInt8) (v : UInt32) : Res ε (List UInt8) :=
  if 4 ≤ buf.length then .ok (leBytes 4 v.toNat ++ buf.drop 4) else .panic

/-- `LittleEndian::write_u64(buf, v)`. -/
def writeU64 (buf : List UInt8) (v : UInt64) : Res ε (List UInt8) :=
  if 8 ≤ buf.length then .ok (leBytes 8 v.toNat ++ buf.drop 8) else .panic

/-- `LittleEndian::write_u128(buf, v)`; `v` is a natural number below `2^128`. -/
def writeU128 (buf : List UInt8) (v : Nat) : Res ε (List UInt8) :=
  if 16 ≤ buf.length then .ok (leBytes 16 v ++ buf.drop 16) else .panic

end Slices

/-- `nb::Error<E>`. -/
inductive Nb (E : Type) where
  | wouldBlock
  | other (e : E)
  deriving DecidableEq, Repr

/-- Cargo features that gate code (`/repo/Cargo.toml`, `[features]`): `version-4-2` and
`version-5-0` are independent switches (`version-4-1`, the default, gates nothing). -/
structure Cfg where
  v42 : Bool
  v50 : Bool
  deriving DecidableEq, Repr

/-- `cfg(any(feature = "version-4-2", feature = "version-5-0"))`. -/
def Cfg.any42 (c : Cfg) : Bool := c.v42 || c.v50

end Bt
