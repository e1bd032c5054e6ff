import Verif.Lemmas.Types
import Verif.Props.IntervalBytes
import Verif.Props.Windows
import Verif.Props.Address
import Verif.Spec.Commands
import Verif.Spec.Constructible

/-! # Lemmas about the commands -/

namespace Bt

open Spec

section
variable {σ ε ε' α β E VS : Type}

@[simp] theorem Ctl.bind_lift_ok (a : α) (f : α → Ctl σ ε β) : (Ctl.lift (.ok a) >>= f) = f a := rfl

@[simp] theorem Ctl.bind_lift_err (e : ε) (f : α → Ctl σ ε β) :
    (Ctl.lift (σ := σ) (.err e : Res ε α) >>= f) = Ctl.lift (.err e) := rfl

theorem rewrapAsComm_eq : rewrapAsComm (E := E) (VS := VS) = commError := by
  funext e; cases e <;> rfl

theorem writeCommand_eq (l : Link) (k : Controller σ E) (op : Opcode) (params : List UInt8) :
    writeCommand (linkHeader l) k op params = k.write (headerBytes l op.val params.length) params := by
  unfold headerBytes
  rw [le16, ← leBytes_eq_le]
  cases l <;> rfl

theorem writeCommand_noCommands (k : Controller σ E) (op : Opcode) (params : List UInt8) :
    writeCommand noCommandsHeader k op params = k.write [0, 0, 0] params := rfl

end

section Params
variable {ε E VS : Type}

theorem zeros_eq (n : Nat) : zeros n = zeroes n := rfl

@[simp] theorem length_zeroes (n : Nat) : (zeroes n).length = n := by simp [zeroes]
@[simp] theorem take_zeroes (n m : Nat) : (zeroes n).take m = zeroes (min m n) := by simp [zeroes]
@[simp] theorem drop_zeroes (n m : Nat) : (zeroes n).drop m = zeroes (n - m) := by simp [zeroes]
@[simp] theorem zeroes_zero : zeroes 0 = [] := rfl
@[simp] theorem tail_zeroes (n : Nat) : (zeroes (n + 1)).tail = zeroes n := rfl

theorem le16_ofNat (n : Nat) : le16 (UInt16.ofNat n) = le 2 n := by
  simp only [le16, le, UInt16.toNat_ofNat', List.range, List.range.loop, List.map_cons, List.map_nil,
    List.cons.injEq, and_true]
  constructor <;> apply UInt8.toNat.inj <;> simp only [UInt8.toNat_ofNat'] <;> omega

@[simp] theorem length_addr (a : BdAddr) : a.val.val.length = 6 := a.val.len
@[simp] theorem length_addrTypeBytes (t : BdAddrType) : (addrTypeBytes t).length = 7 := by
  cases t <;> simp [addrTypeBytes]
@[simp] theorem length_peerBytes (t : PeerAddrType) : (peerBytes t).length = 7 := by
  cases t <;> simp [peerBytes]
@[simp] theorem length_advIntervalBytes (x : AdvertisingInterval) : (advIntervalBytes x).length = 5 := by
  unfold advIntervalBytes
  split <;> simp
@[simp] theorem length_scanWindowBytes (x : ScanWindow) : (scanWindowBytes x).length = 4 := by
  simp [scanWindowBytes]
@[simp] theorem length_connIntervalBytes (x : ConnectionInterval) :
    (connIntervalBytes x).length = 8 := by
  simp [connIntervalBytes]
@[simp] theorem length_connLengthBytes (x : ExpectedConnectionLength) :
    (connLengthBytes x).length = 4 := by
  simp [connLengthBytes]

theorem copyScanWindow_built (x : ScanWindow) (hx : BuiltScanWindow x) (buf : List UInt8)
    (hb : 4 ≤ buf.length) :
    x.copyIntoSlice (ε := ε) buf = .ok (scanWindowBytes x ++ buf.drop 4) := by
  obtain ⟨i, w, h⟩ := hx
  obtain ⟨rfl, rfl, h1, h2, h3⟩ := (C33_accept_iff i w x).mp h
  simp only [ScanWindow.interval, ScanWindow.window] at *
  rw [copyScanWindow_eq x buf hb (by simp only [us, ms] at *; omega) (by simp only [us, ms] at *; omega),
    le16_ofNat, le16_ofNat]
  simp [scanWindowBytes]

theorem copyAdv_built (c : Cfg) (x : AdvertisingInterval) (hx : BuiltAdv c x) (buf : List UInt8)
    (hb : 5 ≤ buf.length) :
    x.copyIntoSlice (ε := ε) buf = .ok (advIntervalBytes x ++ buf.drop 5) := by
  obtain ⟨h1, h2, h3⟩ := hx.bounds
  have hc : x.advertisingType.toU8 = advTypeCode x.advertisingType := by
    cases x.advertisingType <;> rfl
  rw [copyAdvInterval_eq x buf hb (by simp only [us, ms] at *; omega) (by simp only [us, ms] at *; omega),
    le16_ofNat, le16_ofNat, hc]
  simp [advIntervalBytes]

theorem copyLength_built (x : ExpectedConnectionLength) (hx : BuiltLength x) (buf : List UInt8)
    (hb : 4 ≤ buf.length) :
    x.copyIntoSlice (ε := ε) buf = .ok (connLengthBytes x ++ buf.drop 4) := by
  obtain ⟨lo, hi, h⟩ := hx
  obtain ⟨rfl, h1, h2⟩ := ((C36_accept_iff lo hi).1 x).mp h
  rw [copyConnectionLength_eq _ buf hb (by simp only [us] at *; omega) (by simp only [us] at *; omega),
    le16_ofNat, le16_ofNat]
  simp [connLengthBytes]

theorem copyConn_built (x : ConnectionInterval) (hx : Built x) (buf : List UInt8)
    (hb : 8 ≤ buf.length) :
    x.copyIntoSlice (ε := ε) buf = .ok (connIntervalBytes x ++ buf.drop 8) := by
  rw [copyInterval_built x hx buf hb, le16_ofNat, le16_ofNat, le16_ofNat]
  simp [connIntervalBytes]

theorem copyPeer_eq (t : PeerAddrType) (buf : List UInt8) (hb : buf.length = 7) :
    t.copyIntoSlice (ε := ε) buf = .ok (peerBytes t) := by
  unfold PeerAddrType.copyIntoSlice
  rw [beq_iff_eq.mpr hb]
  match buf, hb with
  | [b0, b1, b2, b3, b4, b5, b6], _ =>
    cases t <;> (
      simp only [Res.assert_true, Res.bind_ok]
      rw [setByte_of_lt _ (by simp)]
      simp only [Res.bind_ok]
      rw [copyRange_of_le (by omega) (by simp) (by simp)]
      simp [peerBytes])

/-- A buffer that is a written prefix followed by zeros: the next field is written behind the prefix. -/
theorem next_setByte (pre : List UInt8) (n i : Nat) (b : UInt8) (hi : i = pre.length) :
    setByte (ε := ε) (pre ++ zeroes (n + 1)) i b = .ok ((pre ++ [b]) ++ zeroes n) := by
  subst hi
  rw [setByte_of_lt _ (by simp)]
  simp

theorem next_copy (pre : List UInt8) (n m i j : Nat) (src : List UInt8) (hi : i = pre.length)
    (hj : j = i + m) (hs : src.length = m) :
    copyRange (ε := ε) (pre ++ zeroes (m + n)) i j src = .ok ((pre ++ src) ++ zeroes n) := by
  subst hi hj
  rw [copyRange_of_le (by omega) (by simp) (by omega)]
  simp [hs]

theorem next_field (pre : List UInt8) (n m i j : Nat) (out : List UInt8) (f : List UInt8 → Res ε (List UInt8))
    (hi : i = pre.length) (hj : j = i + m) (hf : f (zeroes m) = .ok out) :
    withRange (pre ++ zeroes (m + n)) i j f = .ok ((pre ++ out) ++ zeroes n) := by
  subst hi hj
  rw [withRange_of_le (by omega) (by simp)]
  have : ((pre ++ zeroes (m + n)).take (pre.length + m)).drop pre.length = zeroes m := by
    rw [List.take_append, List.drop_append]
    simp
  rw [this, hf]
  simp

/-- A 16-bit field written into a slice that runs to the end of the buffer. -/
theorem next_u16 (pre : List UInt8) (n i j : Nat) (v : UInt16) (hi : i = pre.length) (hj : j = i + (2 + n)) :
    withRange (ε := ε) (pre ++ zeroes (2 + n)) i j (fun s => writeU16 s v) =
      .ok ((pre ++ le16 v) ++ zeroes n) := by
  subst hi hj
  rw [withRange_writeU16 _ (by omega) (by simp)]
  simp

theorem next_u64 (pre : List UInt8) (n i j : Nat) (v : UInt64) (hi : i = pre.length) (hj : j = i + (8 + n)) :
    withRange (ε := ε) (pre ++ zeroes (8 + n)) i j (fun s => writeU64 s v) =
      .ok ((pre ++ le64 v) ++ zeroes n) := by
  subst hi hj
  rw [withRange_of_le (by omega) (by simp), writeU64_eq _ (by simp)]
  have : ((pre ++ zeroes (8 + n)).take (pre.length + (8 + n))).drop pre.length = zeroes (8 + n) := by
    rw [List.take_append, List.drop_append]
    simp
  rw [this]
  simp

theorem advParams_eq (c : Cfg) (p : AdvertisingParameters) (hp : BuiltAdv c p.advertisingInterval) :
    p.copyIntoSlice (E := E) (VS := VS) (zeroes 15) =
      if p.advertisingChannelMap = 0 then .err (.badChannelMap 0)
      else .ok (cmdParams (VS := VS) (.leSetAdvertisingParameters p)) := by
  unfold AdvertisingParameters.copyIntoSlice
  rw [beq_iff_eq.mpr (length_zeroes 15)]
  simp only [Res.assert_true, Res.bind_ok]
  by_cases h : p.advertisingChannelMap = 0
  · rw [if_pos h, if_pos h, h]
  rw [if_neg h, if_neg h]
  have h1 := next_field (ε := HostError E VS) [] 10 5 0 5 _ (p.advertisingInterval.copyIntoSlice ·) rfl rfl
    (copyAdv_built c _ hp (zeroes 5) (by simp))
  simp only [List.nil_append, Nat.reduceAdd, drop_zeroes, Nat.sub_self, zeroes_zero, List.append_nil] at h1
  rw [h1]
  simp only [Res.bind_ok]
  rw [next_setByte _ 9 5 _ (by simp)]
  simp only [Res.bind_ok]
  rw [next_field _ 2 7 6 13 (addrTypeBytes p.peerAddress) _ (by simp) rfl
    (by rw [copyAddrType_eq, if_pos (by simp)])]
  simp only [Res.bind_ok]
  rw [next_setByte _ 1 13 _ (by simp)]
  simp only [Res.bind_ok]
  rw [next_setByte _ 0 14 _ (by simp)]
  have e1 : p.ownAddressType.asU8 = ownAddressCode p.ownAddressType := by cases p.ownAddressType <;> rfl
  have e2 : p.advertisingFilterPolicy.asU8 = advFilterCode p.advertisingFilterPolicy := by
    cases p.advertisingFilterPolicy <;> rfl
  simp [cmdParams, e1, e2]

theorem scanParams_eq (p : ScanParameters) (hp : BuiltScanWindow p.scanWindow) :
    p.copyIntoSlice (ε := ε) (zeroes 7) = .ok (cmdParams (VS := VS) (.leSetScanParameters p)) := by
  unfold ScanParameters.copyIntoSlice
  rw [beq_iff_eq.mpr (length_zeroes 7)]
  simp only [Res.assert_true, Res.bind_ok]
  have h1 := next_setByte (ε := ε) [] 6 0 p.scanType.asU8 rfl
  simp only [List.nil_append, Nat.reduceAdd] at h1
  rw [h1]
  simp only [Res.bind_ok]
  rw [next_field _ 2 4 1 5 (scanWindowBytes p.scanWindow) _ (by simp) rfl
    (by rw [copyScanWindow_built _ hp _ (by simp)]; simp)]
  simp only [Res.bind_ok]
  rw [next_setByte _ 1 5 _ (by simp)]
  simp only [Res.bind_ok]
  rw [next_setByte _ 0 6 _ (by simp)]
  have e1 : p.ownAddressType.asU8 = ownAddressCode p.ownAddressType := by cases p.ownAddressType <;> rfl
  have e2 : p.filterPolicy.asU8 = scanFilterCode p.filterPolicy := by cases p.filterPolicy <;> rfl
  have e3 : p.scanType.asU8 = scanTypeCode p.scanType := by cases p.scanType <;> rfl
  simp [cmdParams, e1, e2, e3]

theorem connParams_eq (p : ConnectionParameters) (hp : BuiltScanWindow p.scanWindow)
    (hi : Built p.connInterval) (hl : BuiltLength p.expectedConnectionLength) :
    p.copyIntoSlice (ε := ε) (zeroes 25) = .ok (cmdParams (VS := VS) (.leCreateConnection p)) := by
  unfold ConnectionParameters.copyIntoSlice
  rw [beq_iff_eq.mpr (length_zeroes 25)]
  simp only [Res.assert_true, Res.bind_ok]
  have h1 := next_field (ε := ε) [] 21 4 0 4 _ (p.scanWindow.copyIntoSlice ·) rfl rfl
    (copyScanWindow_built _ hp (zeroes 4) (by simp))
  simp only [List.nil_append, Nat.reduceAdd, drop_zeroes, Nat.sub_self, zeroes_zero, List.append_nil] at h1
  rw [h1]
  simp only [Res.bind_ok]
  rw [next_setByte _ 20 4 _ (by simp)]
  simp only [Res.bind_ok]
  have key : ∀ (peer : List UInt8) (hl' : peer.length = 8),
      (do
        let bytes ← setByte (ε := ε) ((scanWindowBytes p.scanWindow ++ peer) ++ zeroes 13) 12
          p.ownAddressType.asU8
        let bytes ← withRange bytes 13 21 (p.connInterval.copyIntoSlice ·)
        withRange bytes 21 25 (p.expectedConnectionLength.copyIntoSlice ·)) =
      .ok (scanWindowBytes p.scanWindow ++ peer ++ [ownAddressCode p.ownAddressType] ++
        connIntervalBytes p.connInterval ++ connLengthBytes p.expectedConnectionLength) := by
    intro peer h3
    rw [next_setByte _ 12 12 _ (by simp [h3])]
    simp only [Res.bind_ok]
    rw [next_field _ 4 8 13 21 (connIntervalBytes p.connInterval) _ (by simp [h3]) rfl
      (by rw [copyConn_built _ hi _ (by simp)]; simp)]
    simp only [Res.bind_ok]
    rw [next_field _ 0 4 21 25 (connLengthBytes p.expectedConnectionLength) _ (by simp [h3]) rfl
      (by rw [copyLength_built _ hl _ (by simp)]; simp)]
    have e1 : p.ownAddressType.asU8 = ownAddressCode p.ownAddressType := by
      cases p.ownAddressType <;> rfl
    simp [e1]
  simp only [cmdParams]
  cases p.initiatorFilterPolicy with
  | useAddress =>
    simp only
    rw [next_field _ 13 7 5 12 _ _ (by simp) rfl (copyPeer_eq _ _ (by simp))]
    simp only [Res.bind_ok]
    rw [← key (0 :: peerBytes p.peerAddress) (by simp)]
    simp [ConnectionFilterPolicy.asU8]
  | whiteList =>
    simp only
    rw [next_copy _ 13 7 5 12 _ (by simp) rfl rfl]
    simp only [Res.bind_ok]
    rw [← key (1 :: zeroes 7) (by simp)]
    simp [ConnectionFilterPolicy.asU8]
    rfl

theorem connUpdate_eq (p : ConnectionUpdateParameters)
    (hi : Built p.connInterval) (hl : BuiltLength p.expectedConnectionLength) :
    p.copyIntoSlice (ε := ε) (zeroes 14) = .ok (cmdParams (VS := VS) (.leConnectionUpdate p)) := by
  unfold ConnectionUpdateParameters.copyIntoSlice
  rw [beq_iff_eq.mpr (length_zeroes 14)]
  simp only [Res.assert_true, Res.bind_ok]
  have h1 := next_u16 (ε := ε) [] 12 0 14 p.connHandle.val rfl rfl
  simp only [List.nil_append, Nat.reduceAdd] at h1
  rw [length_zeroes, h1]
  simp only [Res.bind_ok]
  rw [next_field _ 4 8 2 10 (connIntervalBytes p.connInterval) _ (by simp) rfl
    (by rw [copyConn_built _ hi _ (by simp)]; simp)]
  simp only [Res.bind_ok]
  rw [next_field _ 0 4 10 14 (connLengthBytes p.expectedConnectionLength) _ (by simp) rfl
    (by rw [copyLength_built _ hl _ (by simp)]; simp)]
  simp [cmdParams]

end Params

end Bt
