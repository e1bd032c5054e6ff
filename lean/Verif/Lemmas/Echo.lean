import Verif.Spec.Echo
import Verif.Lemmas.Bytes

/-! # Lemmas: values handed back -/

namespace Bt

open Spec

variable {c : Cfg} {V : Vendor}

theorem bytesAt_append (a b rest : List UInt8) (i n : Nat) (ha : a.length = i) (hb : b.length = n) :
    bytesAt (a ++ (b ++ rest)) i n = b := by
  subst ha hb
  simp [bytesAt]

theorem command_handle {VS : Type} {cmd : Command VS} {h : ConnectionHandle} (hc : commandHandle cmd = some h) :
    bytesAt (cmdParams cmd) 0 2 = le16 h.val := by
  cases cmd <;> cases hc <;> rfl

/-- A reply with a block, a number or a channel map. -/
def valued {VS VR : Type} : ReturnParameters VS VR → Bool
  | .leEncrypt _ | .leRand _ | .leReadChannelMap _ => true
  | _ => false

theorem statusReply_plain {o : UInt16} {mk : Status V.VStatus → ReturnParameters V.VStatus V.VRet}
    (hm : (o, mk) ∈ statusReplies c) (s : Status V.VStatus) :
    replyHandle (mk s) = none ∧ valued (mk s) = false := by
  simp only [statusReplies, List.mem_cons, List.not_mem_nil, or_false, Prod.mk.injEq] at hm
  rcases hm with ⟨-, rfl⟩ | ⟨-, rfl⟩ | ⟨-, rfl⟩ | ⟨-, rfl⟩ | ⟨-, rfl⟩ | ⟨-, rfl⟩ | ⟨-, rfl⟩ | ⟨-, rfl⟩ |
    ⟨-, rfl⟩ | ⟨-, rfl⟩ | ⟨-, rfl⟩ | ⟨-, rfl⟩ | ⟨-, rfl⟩ | ⟨-, rfl⟩ | ⟨-, rfl⟩ | ⟨-, rfl⟩ | ⟨-, rfl⟩ <;>
    first | exact ⟨rfl, rfl⟩ | (split <;> exact ⟨rfl, rfl⟩)

theorem reply_handle {o : UInt16} {ps : List UInt8} {r : ReturnParameters V.VStatus V.VRet}
    (hr : Returns c V o ps r) {h : ConnectionHandle} (hh : replyHandle r = some h) :
    o ∈ handleReplies ∧ bytesAt ps 1 2 = le16 h.val := by
  cases hr with
  | statusOnly hm hs =>
    rw [(statusReply_plain hm _).1] at hh
    cases hh
  | readTxPowerLevel hs | readRssi hs | leReadChannelMap hs _ | leLongTermKeyRequestReply hs
  | leLongTermKeyRequestNegativeReply hs => cases hh; exact ⟨by decide, rfl⟩
  | _ => cases hh

theorem event_handle {code : UInt8} {ps : List UInt8} {e : V.Ev} (hs : Says c V code ps e)
    {h : ConnectionHandle} (hh : eventHandle e = some h) :
    ∃ i, handleOffset code ps = some i ∧ bytesAt ps i 2 = le16 h.val := by
  cases hs with
  | commandComplete hr =>
    obtain ⟨h1, h2⟩ := reply_handle hr hh
    rename_i n o qs r
    refine ⟨4, ?_, ?_⟩
    · unfold handleOffset
      rw [if_pos rfl, if_pos ⟨o, h1, rfl⟩]
    · rw [← h2]; rfl
  | connectionComplete | disconnectionComplete | encryptionChange | readRemoteVersionInformationComplete
  | encryptionKeyRefreshComplete | leLongTermKeyRequest | leDataLengthChangeEvent =>
    cases hh; exact ⟨1, rfl, rfl⟩
  | leConnectionComplete | leConnectionUpdateComplete | leReadRemoteUsedFeaturesComplete
  | lePhyUpdateComplete => cases hh; exact ⟨2, rfl, rfl⟩
  | _ => cases hh

theorem pair_bytesAt {xs : List (UInt16 × UInt16)} {i : Nat} {x : UInt16 × UInt16} (hx : xs[i]? = some x)
    (n : UInt8) : bytesAt (n :: pairsBytes xs) (4 * i + 1) 2 = le16 x.1 := by
  show bytesAt (pairsBytes xs) (4 * i) 2 = _
  induction xs generalizing i with
  | nil => cases hx
  | cons y ys ih =>
    cases i with
    | zero => cases hx; rfl
    | succ i => exact ih hx

theorem block_bytesAt {VS : Type} {cmd : Command VS} {i : Nat} {b : Arr 16} (hb : (i, b) ∈ commandBlocks cmd) :
    bytesAt (cmdParams cmd) i 16 = b.val := by
  cases cmd with
  | leEncrypt p =>
    simp only [commandBlocks, List.mem_cons, List.not_mem_nil, or_false, Prod.mk.injEq] at hb
    rcases hb with ⟨rfl, rfl⟩ | ⟨rfl, rfl⟩
    · exact bytesAt_append [] p.key.val p.plaintextData.val 0 16 rfl p.key.len
    · have := bytesAt_append p.key.val p.plaintextData.val [] 16 16 p.key.len p.plaintextData.len
      rwa [List.append_nil] at this
  | leStartEncryption p =>
    simp only [commandBlocks, List.mem_cons, List.not_mem_nil, or_false, Prod.mk.injEq] at hb
    obtain ⟨rfl, rfl⟩ := hb
    have := bytesAt_append (le16 p.connHandle.val ++ le64 p.randomNumber ++ le16 p.encryptedDiversifier)
      p.longTermKey.val [] 12 16 (by simp) p.longTermKey.len
    rwa [List.append_nil] at this
  | leLongTermKeyRequestReply h key =>
    simp only [commandBlocks, List.mem_cons, List.not_mem_nil, or_false, Prod.mk.injEq] at hb
    obtain ⟨rfl, rfl⟩ := hb
    have := bytesAt_append (le16 h.val) b.val [] 2 16 (by simp) b.len
    rwa [List.append_nil] at this
  | _ => cases hb

theorem addrType_seven (a : BdAddrType) : (addrTypeBytes a).length = 7 := by
  cases a <;> simp [addrTypeBytes, Arr.len]

/-- What the replies with a value say. -/
theorem reply_value {ps : List UInt8} {n : UInt8} {r : ReturnParameters V.VStatus V.VRet}
    (hs : Says c V 0x0E ps (.commandComplete ⟨n, r⟩)) :
    (∀ x, r = .leRand x → bytesAt ps 4 8 = le64 x.randomNumber) ∧
    (∀ x, r = .leEncrypt x → bytesAt ps 4 16 = x.encryptedData.val) ∧
    ∀ x, r = .leReadChannelMap x → bytesAt ps 6 5 = x.channelMap.arr.val := by
  cases hs with
  | commandComplete hr =>
    cases hr with
    | statusOnly hm _ =>
      have := fun s => (statusReply_plain (V := V) hm s).2
      refine ⟨?_, ?_, ?_⟩ <;> intro x hx <;> (have := this ‹_›; rw [hx] at this; cases this)
    | leRand _ => exact ⟨fun x hx => (by cases hx; rfl), fun x hx => (by cases hx), fun x hx => (by cases hx)⟩
    | leEncrypt _ =>
      rename_i d _
      refine ⟨fun x hx => (by cases hx), fun x hx => ?_, fun x hx => (by cases hx)⟩
      cases hx
      have := bytesAt_append [] d.val [] 0 16 rfl d.len
      rwa [List.append_nil] at this
    | leReadChannelMap _ _ =>
      rename_i m _ _
      refine ⟨fun x hx => (by cases hx), fun x hx => (by cases hx), fun x hx => ?_⟩
      cases hx
      have := bytesAt_append [] m.arr.val [] 0 5 rfl m.arr.len
      rwa [List.append_nil] at this
    | _ => exact ⟨fun x hx => (by cases hx), fun x hx => (by cases hx), fun x hx => (by cases hx)⟩
  | commandCompleteVendor => exact ⟨fun x hx => (by cases hx), fun x hx => (by cases hx), fun x hx => (by cases hx)⟩

theorem names_device {VS : Type} {a : BdAddrType} {cmd : Command VS} (hn : Names a cmd) :
    bytesAt (cmdParams cmd) (deviceOffset (cmdOpcode cmd)) 7 = addrTypeBytes a := by
  have key : ∀ pre rest i, pre.length = i → bytesAt (pre ++ (addrTypeBytes a ++ rest)) i 7 = addrTypeBytes a :=
    fun pre rest i hi => bytesAt_append pre _ rest i 7 hi (addrType_seven a)
  cases cmd with
  | leAddDeviceToWhiteList b =>
    cases hn
    have := key [] [] 0 rfl
    rwa [List.append_nil] at this
  | leRemoveDeviceFromWhiteList b =>
    cases hn
    have := key [] [] 0 rfl
    rwa [List.append_nil] at this
  | leSetAdvertisingParameters p =>
    cases hn
    have := key (advIntervalBytes p.advertisingInterval ++ [ownAddressCode p.ownAddressType])
      [p.advertisingChannelMap, advFilterCode p.advertisingFilterPolicy] 6 (by
        unfold advIntervalBytes; split <;> simp)
    show bytesAt _ 6 7 = _
    simpa only [cmdParams, List.append_assoc] using this
  | leCreateConnection p =>
    obtain ⟨h1, h2⟩ := hn
    have := key (scanWindowBytes p.scanWindow ++ [0])
      ([ownAddressCode p.ownAddressType] ++ connIntervalBytes p.connInterval ++
        connLengthBytes p.expectedConnectionLength) 5 (by simp [scanWindowBytes])
    have e : peerBytes p.peerAddress = addrTypeBytes a := by rw [h2]; cases a <;> rfl
    rw [← e] at this ⊢
    show bytesAt _ 5 7 = _
    simpa only [cmdParams, h1, List.append_assoc, List.cons_append, List.nil_append] using this
  | _ => cases hn

end Bt
