import Verif.Lemmas.ReturnParsers
import Verif.Props.Opcode

/-! # Decoding of return parameters by opcode -/

namespace Bt

open Spec

variable (c : Cfg) (V : Vendor)

theorem returnParams_zero (bytes : List UInt8) : returnParams c V ⟨0⟩ bytes = .ok .spontaneous := rfl

theorem returnParams_status {o : UInt16} {mk : Status V.VStatus → ReturnParameters V.VStatus V.VRet}
    (h : (o, mk) ∈ statusReplies c) (bytes : List UInt8) :
    returnParams c V ⟨o⟩ bytes = (do .ok (mk (← toStatus c V (← sliceFrom bytes 3)))) := by
  simp only [statusReplies, List.mem_cons, Prod.mk.injEq, List.not_mem_nil, or_false] at h
  rcases h with ⟨rfl, rfl⟩ | ⟨rfl, rfl⟩ | ⟨rfl, rfl⟩ | ⟨rfl, rfl⟩ | ⟨rfl, rfl⟩ | ⟨rfl, rfl⟩ | ⟨rfl, rfl⟩ |
    ⟨rfl, rfl⟩ | ⟨rfl, rfl⟩ | ⟨rfl, rfl⟩ | ⟨rfl, rfl⟩ | ⟨rfl, rfl⟩ | ⟨rfl, rfl⟩ | ⟨rfl, rfl⟩ | ⟨rfl, rfl⟩ |
    ⟨rfl, rfl⟩ | ⟨rfl, rfl⟩
  all_goals first
    | rfl
    | (obtain ⟨v42, v50⟩ := c; cases v50 <;> rfl)

theorem returnParams_other {o : UInt16} (h0 : o ≠ 0) (h : ¬ KnownReply o) (bytes : List UInt8) :
    returnParams c V ⟨o⟩ bytes =
      if (Opcode.mk o).ogf ≠ 0x3F then .err (.unknownOpcode ⟨o⟩)
      else (do .ok (.vendor (← V.retNew bytes))) := by
  have ne : ∀ x : Opcode, x.val ∈ openReturns ++ fixedReturns.map Prod.fst → (⟨o⟩ : Opcode) ≠ x := by
    rintro x hx rfl
    rw [List.mem_append, List.mem_map] at hx
    apply h
    rcases hx with hx | ⟨⟨a, n⟩, hx, rfl⟩
    · exact .inl hx
    · exact .inr ⟨n, hx⟩
  unfold returnParams
  rw [if_neg (show (⟨o⟩ : Opcode) ≠ ⟨0x0000⟩ from fun e => h0 (congrArg Opcode.val e))]
  repeat rw [if_neg (ne _ (by decide))]

theorem vendorOpcode_iff (o : UInt16) : VendorOpcode o ↔ (Opcode.mk o).ogf = 0x3F := by
  unfold VendorOpcode
  have := Opcode.toNat_ogf ⟨o⟩
  constructor
  · intro h
    apply UInt16.toNat.inj
    rw [this, h]; rfl
  · intro h
    rw [h] at this
    exact this.symm

instance (o : UInt16) : Decidable (VendorOpcode o) := by unfold VendorOpcode; exact inferInstance

theorem not_vendor_of_known {o : UInt16} (h : KnownReply o) : ¬ VendorOpcode o := by
  have h1 : ∀ o ∈ openReturns, ¬ VendorOpcode o := by decide +kernel
  have h2 : ∀ p ∈ fixedReturns, ¬ VendorOpcode p.1 := by decide +kernel
  rcases h with h | ⟨n, h⟩
  · exact h1 o h
  · exact h2 _ h

theorem ne_zero_of_known {o : UInt16} (h : KnownReply o) : o ≠ 0 := by
  have h1 : ∀ o ∈ openReturns, o ≠ 0 := by decide +kernel
  have h2 : ∀ p ∈ fixedReturns, p.1 ≠ 0 := by decide +kernel
  rcases h with h | ⟨n, h⟩
  · exact h1 o h
  · exact h2 _ h

theorem mem_openReturns {VS VR : Type} (o : UInt16) :
    o ∈ openReturns ↔
      o = op 0x08 0x0F ∨ ∃ mk, (o, mk) ∈ statusReplies (VS := VS) (VR := VR) c := by
  have : (∃ mk, (o, mk) ∈ statusReplies (VS := VS) (VR := VR) c) ↔
      o ∈ (statusReplies (VS := VS) (VR := VR) c).map Prod.fst := by simp
  rw [this]
  simp only [openReturns, statusReplies, List.map, List.mem_cons, List.not_mem_nil, or_false]
  constructor <;> (intro h; rcases h with h | h | h | h | h | h | h | h | h | h | h | h | h | h | h | h | h | h <;> simp [h])

theorem sliceFrom_reply (k : UInt8) (o : UInt16) (ps : List UInt8) :
    sliceFrom (ε := EvError V.VErr) (k :: le16 o ++ ps) 3 = .ok ps := by
  obtain ⟨a, b, h, _⟩ := le16_cases o
  rw [h]
  simp [sliceFrom]

theorem idx_reply (k : UInt8) (o : UInt16) (st : UInt8) (ps : List UInt8) :
    idx (ε := EvError V.VErr) (k :: le16 o ++ st :: ps) 4 = idx ps 0 := by
  obtain ⟨a, b, h, _⟩ := le16_cases o
  rw [h]
  simp [idx]

/-- Status-only replies. -/
theorem status_reply {o : UInt16} {mk : Status V.VStatus → ReturnParameters V.VStatus V.VRet}
    (h : (o, mk) ∈ statusReplies c) (k : UInt8) (ps : List UInt8) :
    returnParams c V ⟨o⟩ (k :: le16 o ++ ps) =
      match ps with
      | [] => .panic
      | st :: _ => (tryStatus c V st).mapOk mk := by
  rw [returnParams_status c V h, sliceFrom_reply, Res.bind_ok]
  unfold toStatus
  cases ps with
  | nil => rfl
  | cons st ps =>
    simp only [idx, List.getElem?_cons_zero, Res.bind_ok]
    cases tryStatus c V st <;> rfl

theorem whiteList_reply (k : UInt8) (ps : List UInt8) :
    returnParams c V ⟨op 0x08 0x0F⟩ (k :: le16 (op 0x08 0x0F) ++ ps) =
      match ps with
      | [] => .panic
      | st :: ps => (do
        let s ← tryStatus c V st
        match ps with
        | [] => .panic
        | n :: _ => .ok (.leReadWhiteListSize s n.toNat)) := by
  have : ∀ bytes, returnParams c V ⟨op 0x08 0x0F⟩ bytes = (do
    let s ← toStatus c V (← sliceFrom bytes 3)
    let n ← idx bytes 4
    .ok (.leReadWhiteListSize s n.toNat)) := fun _ => rfl
  rw [this, sliceFrom_reply, Res.bind_ok]
  unfold toStatus
  cases ps with
  | nil => rfl
  | cons st ps =>
    rw [idx_reply]
    simp only [idx, List.getElem?_cons_zero, Res.bind_ok]
    cases tryStatus c V st with
    | ok s => cases ps <;> rfl
    | err e => rfl
    | panic => rfl

/-- The decoder of a fixed-length reply. -/
def fixedParser (o : UInt16) (ps : List UInt8) :
    Res (EvError V.VErr) (ReturnParameters V.VStatus V.VRet) :=
  if o = op 0x03 0x2D then (toTxPowerLevel c V ps).mapOk .readTxPowerLevel
  else if o = op 0x04 0x01 then (toLocalVersionInfo c V ps).mapOk .readLocalVersionInformation
  else if o = op 0x04 0x02 then (toSupportedCommands c V ps).mapOk .readLocalSupportedCommands
  else if o = op 0x04 0x03 then (toSupportedFeatures c V ps).mapOk .readLocalSupportedFeatures
  else if o = op 0x04 0x09 then (toBdAddr c V ps).mapOk .readBdAddr
  else if o = op 0x05 0x05 then (toReadRssi c V ps).mapOk .readRssi
  else if o = op 0x08 0x02 then (toLeReadBufferStatus c V ps).mapOk .leReadBufferSize
  else if o = op 0x08 0x03 then (toLeLocalSupportedFeatures c V ps).mapOk .leReadLocalSupportedFeatures
  else if o = op 0x08 0x07 then
    (toLeAdvertisingChannelTxPower c V ps).mapOk .leReadAdvertisingChannelTxPower
  else if o = op 0x08 0x15 then (toLeChannelMapParameters c V ps).mapOk .leReadChannelMap
  else if o = op 0x08 0x17 then (toLeEncryptedData c V ps).mapOk .leEncrypt
  else if o = op 0x08 0x18 then (toRandomNumber c V ps).mapOk .leRand
  else if o = op 0x08 0x1A then (toLeLtkRequestReply c V ps).mapOk .leLongTermKeyRequestReply
  else if o = op 0x08 0x1B then (toLeLtkRequestReply c V ps).mapOk .leLongTermKeyRequestNegativeReply
  else if o = op 0x08 0x1C then (toLeReadStates c V ps).mapOk .leReadSupportedStates
  else (toLeTestEnd c V ps).mapOk .leTestEnd

theorem fixed_cases {P : UInt16 → Nat → Prop}
    (h : P (op 0x03 0x2D) 4 ∧ P (op 0x04 0x01) 9 ∧ P (op 0x04 0x02) 65 ∧ P (op 0x04 0x03) 9 ∧
      P (op 0x04 0x09) 7 ∧ P (op 0x05 0x05) 4 ∧ P (op 0x08 0x02) 4 ∧ P (op 0x08 0x03) 9 ∧
      P (op 0x08 0x07) 2 ∧ P (op 0x08 0x15) 8 ∧ P (op 0x08 0x17) 17 ∧ P (op 0x08 0x18) 9 ∧
      P (op 0x08 0x1A) 3 ∧ P (op 0x08 0x1B) 3 ∧ P (op 0x08 0x1C) 9 ∧ P (op 0x08 0x1F) 3)
    {o : UInt16} {n : Nat} (hm : (o, n) ∈ fixedReturns) : P o n := by
  simp only [fixedReturns, List.mem_cons, Prod.mk.injEq, List.not_mem_nil, or_false] at hm
  obtain ⟨h0, h1, h2, h3, h4, h5, h6, h7, h8, h9, h10, h11, h12, h13, h14, h15⟩ := h
  rcases hm with ⟨rfl, rfl⟩ | ⟨rfl, rfl⟩ | ⟨rfl, rfl⟩ | ⟨rfl, rfl⟩ | ⟨rfl, rfl⟩ | ⟨rfl, rfl⟩ | ⟨rfl, rfl⟩ |
    ⟨rfl, rfl⟩ | ⟨rfl, rfl⟩ | ⟨rfl, rfl⟩ | ⟨rfl, rfl⟩ | ⟨rfl, rfl⟩ | ⟨rfl, rfl⟩ | ⟨rfl, rfl⟩ | ⟨rfl, rfl⟩ |
    ⟨rfl, rfl⟩ <;> assumption

theorem fixed_reply {o : UInt16} {n : Nat} (h : (o, n) ∈ fixedReturns) (k : UInt8) (ps : List UInt8) :
    returnParams c V ⟨o⟩ (k :: le16 o ++ ps) = fixedParser c V o ps := by
  have key : ∀ bytes, sliceFrom (ε := EvError V.VErr) bytes 3 = .ok ps →
      returnParams c V ⟨o⟩ bytes = fixedParser c V o ps := by
    intro bytes hb
    have g {α : Type} (f : List UInt8 → Res (EvError V.VErr) α)
        (mk : α → ReturnParameters V.VStatus V.VRet) {R F : Res (EvError V.VErr) _}
        (h1 : R = (sliceFrom bytes 3 >>= fun ps => f ps >>= fun a => .ok (mk a)))
        (h2 : F = (f ps).mapOk mk) : R = F := by
      rw [h1, h2, hb, Res.bind_ok]
      cases f ps <;> rfl
    revert h
    apply fixed_cases (P := fun o n => returnParams c V ⟨o⟩ bytes = fixedParser c V o ps)
    refine ⟨g (toTxPowerLevel c V) .readTxPowerLevel rfl rfl,
      g (toLocalVersionInfo c V) .readLocalVersionInformation rfl rfl,
      g (toSupportedCommands c V) .readLocalSupportedCommands rfl rfl,
      g (toSupportedFeatures c V) .readLocalSupportedFeatures rfl rfl,
      g (toBdAddr c V) .readBdAddr rfl rfl,
      g (toReadRssi c V) .readRssi rfl rfl,
      g (toLeReadBufferStatus c V) .leReadBufferSize rfl rfl,
      g (toLeLocalSupportedFeatures c V) .leReadLocalSupportedFeatures rfl rfl,
      g (toLeAdvertisingChannelTxPower c V) .leReadAdvertisingChannelTxPower rfl rfl,
      g (toLeChannelMapParameters c V) .leReadChannelMap rfl rfl,
      g (toLeEncryptedData c V) .leEncrypt rfl rfl,
      g (toRandomNumber c V) .leRand rfl rfl,
      g (toLeLtkRequestReply c V) .leLongTermKeyRequestReply rfl rfl,
      g (toLeLtkRequestReply c V) .leLongTermKeyRequestNegativeReply rfl rfl,
      g (toLeReadStates c V) .leReadSupportedStates rfl rfl,
      g (toLeTestEnd c V) .leTestEnd rfl rfl⟩
  exact key _ (sliceFrom_reply V k o ps)

end Bt
