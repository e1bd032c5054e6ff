import Verif.Basic
import Verif.Spec.Bytes

/-! # Lemmas on byte strings, slices and buffers -/

namespace Bt

open Spec (le le16 le32 le64 leVal)

variable {ε : Type}

theorem leBytes_eq_le (n v : Nat) : leBytes n v = le n v := by
  induction n generalizing v with
  | zero => rfl
  | succ n ih =>
    rw [leBytes, ih, le, le, List.range_succ_eq_map, List.map_cons, List.map_map]
    congr 1
    · simp
    · apply List.map_congr_left
      intro i _
      simp only [Function.comp, Nat.succ_eq_add_one, Nat.pow_succ]
      rw [Nat.div_div_eq_div_mul, Nat.mul_comm]

@[simp] theorem length_le (n v : Nat) : (le n v).length = n := by simp [le]
@[simp] theorem length_le16 (v : UInt16) : (le16 v).length = 2 := by simp [le16]
@[simp] theorem length_le32 (v : UInt32) : (le32 v).length = 4 := by simp [le32]
@[simp] theorem length_le64 (v : UInt64) : (le64 v).length = 8 := by simp [le64]
@[simp] theorem length_leBytes (n v : Nat) : (leBytes n v).length = n := by
  rw [leBytes_eq_le, length_le]

theorem leNat_lt (bs : List UInt8) : leNat bs < 256 ^ bs.length := by
  induction bs with
  | nil => simp [leNat]
  | cons b bs ih =>
    simp only [leNat, List.length_cons, Nat.pow_succ]
    have := b.toNat_lt
    omega

theorem leNat_leBytes (n v : Nat) : leNat (leBytes n v) = v % 256 ^ n := by
  induction n generalizing v with
  | zero => simp [leBytes, leNat, Nat.mod_one]
  | succ n ih =>
    simp only [leBytes, leNat, ih, UInt8.toNat_ofNat']
    rw [show (256:Nat) ^ (n + 1) = 256 * 256 ^ n by rw [Nat.pow_succ, Nat.mul_comm], Nat.mod_mul]

theorem leBytes_leNat (bs : List UInt8) : leBytes bs.length (leNat bs) = bs := by
  induction bs with
  | nil => rfl
  | cons b bs ih =>
    simp only [List.length_cons, leBytes, leNat]
    have hb := b.toNat_lt
    congr 1
    · apply UInt8.toNat.inj
      rw [UInt8.toNat_ofNat']
      omega
    · rw [show (b.toNat + 256 * leNat bs) / 256 = leNat bs by omega, ih]

/-- Reading back a little-endian 16-bit number. -/
theorem ofNat_leNat_le16 (v : UInt16) : UInt16.ofNat (leNat (le16 v)) = v := by
  rw [le16, ← leBytes_eq_le, leNat_leBytes]
  apply UInt16.toNat.inj
  rw [UInt16.toNat_ofNat']
  have := v.toNat_lt
  omega

theorem ofNat_leNat_le32 (v : UInt32) : UInt32.ofNat (leNat (le32 v)) = v := by
  rw [le32, ← leBytes_eq_le, leNat_leBytes]
  apply UInt32.toNat.inj
  rw [UInt32.toNat_ofNat']
  have := v.toNat_lt
  omega

theorem ofNat_leNat_le64 (v : UInt64) : UInt64.ofNat (leNat (le64 v)) = v := by
  rw [le64, ← leBytes_eq_le, leNat_leBytes]
  apply UInt64.toNat.inj
  rw [UInt64.toNat_ofNat']
  have := v.toNat_lt
  omega

/-- Two bytes are the little-endian form of the number read from them. -/
theorem le16_ofNat_leNat (bs : List UInt8) (h : bs.length = 2) :
    le16 (UInt16.ofNat (leNat bs)) = bs := by
  have hl := leNat_lt bs
  rw [h] at hl
  rw [le16, ← leBytes_eq_le, UInt16.toNat_ofNat', Nat.mod_eq_of_lt (by omega), ← h, leBytes_leNat]

theorem le64_ofNat_leNat (bs : List UInt8) (h : bs.length = 8) :
    le64 (UInt64.ofNat (leNat bs)) = bs := by
  have hl := leNat_lt bs
  rw [h] at hl
  rw [le64, ← leBytes_eq_le, UInt64.toNat_ofNat', Nat.mod_eq_of_lt (by omega), ← h, leBytes_leNat]

theorem le16_inj {a b : UInt16} (h : le16 a = le16 b) : a = b := by
  rw [← ofNat_leNat_le16 a, h, ofNat_leNat_le16]

theorem le64_inj {a b : UInt64} (h : le64 a = le64 b) : a = b := by
  rw [← ofNat_leNat_le64 a, h, ofNat_leNat_le64]

theorem leVal_eq_leNat (bs : List UInt8) : leVal bs = leNat bs := by
  induction bs with
  | nil => rfl
  | cons b bs ih => simp [leVal, leNat, ih]

/-! ## Buffers -/

theorem idx_of_lt {bs : List UInt8} {i : Nat} (h : i < bs.length) : idx (ε := ε) bs i = .ok bs[i] := by
  simp [idx, h]

theorem idx_of_ge {bs : List UInt8} {i : Nat} (h : bs.length ≤ i) : idx (ε := ε) bs i = .panic := by
  simp [idx, h]

theorem slice_of_le {bs : List UInt8} {a b : Nat} (h : a ≤ b) (h' : b ≤ bs.length) :
    slice (ε := ε) bs a b = .ok ((bs.take b).drop a) := by simp [slice, h, h']

theorem toArr_of_eq {n : Nat} {bs : List UInt8} (h : bs.length = n) :
    toArr (ε := ε) n bs = .ok ⟨bs, h⟩ := by simp [toArr, h]

theorem copyRange_of_le {buf src : List UInt8} {a b : Nat} (h : a ≤ b) (h' : b ≤ buf.length)
    (hs : src.length = b - a) :
    copyRange (ε := ε) buf a b src = .ok (buf.take a ++ src ++ buf.drop b) := by
  have : a + src.length = b := by omega
  simp only [copyRange, h, h', hs, splice, and_self, if_true]
  rw [show a + (b - a) = b by omega]

theorem withRange_of_le {buf : List UInt8} {a b : Nat} {f : List UInt8 → Res ε (List UInt8)}
    (h : a ≤ b) (h' : b ≤ buf.length) :
    withRange buf a b f = (f ((buf.take b).drop a)).mapOk (fun s => buf.take a ++ s ++ buf.drop b) := by
  simp only [withRange, h, h', and_self, if_true]
  cases f ((buf.take b).drop a) <;> rfl

theorem writeU16_eq {buf : List UInt8} (v : UInt16) (h : 2 ≤ buf.length) :
    writeU16 (ε := ε) buf v = .ok (le16 v ++ buf.drop 2) := by
  simp [writeU16, h, leBytes_eq_le, le16]

theorem writeU64_eq {buf : List UInt8} (v : UInt64) (h : 8 ≤ buf.length) :
    writeU64 (ε := ε) buf v = .ok (le64 v ++ buf.drop 8) := by
  simp [writeU64, h, leBytes_eq_le, le64]

theorem setByte_of_lt {buf : List UInt8} {i : Nat} (b : UInt8) (h : i < buf.length) :
    setByte (ε := ε) buf i b = .ok (buf.take i ++ b :: buf.drop (i + 1)) := by
  simp [setByte, h, List.set_eq_take_append_cons_drop]

theorem withRange_writeU16 {buf : List UInt8} {a b : Nat} (v : UInt16) (h : a + 2 ≤ b)
    (h' : b ≤ buf.length) :
    withRange (ε := ε) buf a b (fun s => writeU16 s v) = .ok (buf.take a ++ le16 v ++ buf.drop (a + 2)) := by
  rw [withRange_of_le (by omega) h', writeU16_eq _ (by simp; omega)]
  simp only [Res.mapOk_ok, Res.ok.injEq, List.append_assoc, List.append_cancel_left_eq]
  rw [List.drop_drop, List.drop_take]
  have : buf.drop b = (buf.drop (a + 2)).drop (b - (a + 2)) := by
    rw [List.drop_drop]; congr 1; omega
  rw [this, List.take_append_drop]

end Bt
