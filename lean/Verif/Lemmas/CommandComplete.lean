import Verif.Lemmas.FixedReturns

/-! # Command Complete: results, errors and panics -/

namespace Bt

open Spec

variable (c : Cfg) (V : Vendor)

/-- What can happen to the parameters of an event. -/
inductive EvOutcome (code : UInt8) (ps : List UInt8) : Res (EvError V.VErr) V.Ev → Prop where
  | ok {e} : Says c V code ps e → EvOutcome code ps (.ok e)
  | len {a b} : LengthFault (frame code ps) a b → EvOutcome code ps (.err (.badLength a b))
  | err {i e} : FaultAt c V code ps i e → EvOutcome code ps (.err e)
  | panic : Panics c V (frame code ps) → EvOutcome code ps .panic
  | vendorPanic : ¬ VendorReturns V → EvOutcome code ps .panic

theorem commandComplete_eq (k : UInt8) (o : UInt16) (ps : List UInt8) :
    CommandComplete.new c V (k :: le16 o ++ ps) =
      (do let r ← returnParams c V ⟨o⟩ (k :: le16 o ++ ps)
          .ok ⟨k, r⟩) := by
  unfold CommandComplete.new
  obtain ⟨a, b, h, hv⟩ := le16_cases o
  rw [h]
  simp only [List.cons_append, List.nil_append]
  have e1 : requireLenAtLeast (VE := V.VErr) (k :: a :: b :: ps) 3 = .ok () := by simp [requireLenAtLeast]
  have e2 : readU16From (ε := EvError V.VErr) (k :: a :: b :: ps) 1 = .ok o := by
    simp [readU16From, sliceFrom, readU16, ← hv]
  rw [e1, e2]
  rfl

theorem commandComplete_shape (p : List UInt8) (h : 3 ≤ p.length) :
    ∃ k o ps, p = k :: le16 o ++ ps := by
  match p, h with
  | k :: a :: b :: ps, _ =>
    obtain ⟨o, ho⟩ := le16_exists a b
    exact ⟨k, o, ps, by rw [← ho]; rfl⟩

theorem commandComplete_short (p : List UInt8) (h : p.length < 3) :
    CommandComplete.new c V p = .err (.badLength p.length 3) := by
  unfold CommandComplete.new requireLenAtLeast
  rw [if_pos h]
  rfl

theorem commandComplete_outcome (p : List UInt8) (hp : p.length ≤ 255) :
    EvOutcome c V 0x0E p ((CommandComplete.new c V p).mapOk .commandComplete) := by
  by_cases h3 : p.length < 3
  · rw [commandComplete_short c V p h3]
    exact .len (.commandComplete h3)
  obtain ⟨k, o, ps, rfl⟩ := commandComplete_shape p (by omega)
  rw [commandComplete_eq, mapOk_bind]
  have hps : ps.length ≤ 252 := by simp at hp; omega
  by_cases h0 : o = 0
  · subst h0
    rw [returnParams_zero]
    exact .ok (.commandComplete .spontaneous)
  by_cases hk : KnownReply o
  · rcases hk with hk' | ⟨n, hk'⟩
    · rcases (mem_openReturns c (VS := V.VStatus) (VR := V.VRet) o).mp hk' with rfl | ⟨mk, hmk⟩
      · rw [whiteList_reply]
        cases ps with
        | nil => exact .panic (by rw [List.append_nil]; exact .noStatus hk')
        | cons st ps =>
          simp only
          cases hs : tryStatus c V st with
          | ok s =>
            have hs' := (tryStatus_ok_iff c V st s).mp hs
            cases ps with
            | nil => exact .panic (.noSize hs')
            | cons n rest => exact .ok (.commandComplete (.leReadWhiteListSize hs'))
          | err e =>
            obtain ⟨w, h1, h2, rfl⟩ := (tryStatus_err c V st e).mp hs
            exact .err (.status (.reply (.inl hk') rfl) h1 h2)
          | panic => exact .vendorPanic fun hV => tryStatus_panic c V hV st hs
      · rw [status_reply c V hmk]
        cases ps with
        | nil => exact .panic (by rw [List.append_nil]; exact .noStatus hk')
        | cons st ps =>
          simp only
          cases hs : tryStatus c V st with
          | ok s =>
            have hs' := (tryStatus_ok_iff c V st s).mp hs
            exact .ok (.commandComplete (.statusOnly hmk hs'))
          | err e =>
            obtain ⟨w, h1, h2, rfl⟩ := (tryStatus_err c V st e).mp hs
            exact .err (.status (.reply (.inl hk') rfl) h1 h2)
          | panic => exact .vendorPanic fun hV => tryStatus_panic c V hV st hs
    · rw [fixed_reply c V hk']
      by_cases hl : ps.length = n
      · have := fixedParser_outcome c V hk' k ps hl
        revert this
        generalize fixedParser c V o ps = R
        intro hR
        cases hR with
        | ok h => exact .ok (.commandComplete h)
        | err h => exact .err h
        | panic h => exact .vendorPanic h
      · rw [fixedParser_len c V hk' ps hl]
        exact .len (.returns hk' hps hl)
  · rw [returnParams_other c V h0 hk]
    by_cases hv : VendorOpcode o
    · rw [if_neg (by rw [ne_eq, Classical.not_not]; exact (vendorOpcode_iff o).mp hv)]
      cases hr : V.retNew (k :: le16 o ++ ps) with
      | ok r => exact .ok (.commandCompleteVendor hv hr)
      | err e => exact .err (.vendorReturn hv hr)
      | panic => exact .vendorPanic fun hV => hV.ret _ hr
    · rw [if_pos (fun h => hv ((vendorOpcode_iff o).mpr h))]
      exact .err (.opcode h0 hk hv)

theorem fixed_ok {o : UInt16} {n : Nat} (h : (o, n) ∈ fixedReturns) {k : UInt8} {ps : List UInt8}
    {r : ReturnParameters V.VStatus V.VRet} (hr : fixedParser c V o ps = .ok r) :
    returnParams c V ⟨o⟩ (k :: le16 o ++ ps) = .ok r := by
  rw [fixed_reply c V h, hr]

theorem u64_eq_truncate {c : Cfg} {t : List FlagDecl} {P : Nat → Prop} {x y : UInt64}
    (hP : ∀ j, Declared64 c t j ↔ P j) (h : ∀ j, y.toNat.testBit j = true ↔ x.toNat.testBit j = true ∧ P j) :
    fromBitsTruncate c t x = y := by
  apply u64_ext
  intro j
  rw [Bool.eq_iff_iff, truncate_bits hP, h j]

/-- Completeness of the decoding of return parameters. -/
theorem returns_ok {o : UInt16} {ps : List UInt8} {r : ReturnParameters V.VStatus V.VRet}
    (h : Returns c V o ps r) (k : UInt8) : returnParams c V ⟨o⟩ (k :: le16 o ++ ps) = .ok r := by
  have ts {st s} (hs : StatusByte c V st s) : tryStatus c V st = .ok s := (tryStatus_ok_iff c V st s).mpr hs
  cases h with
  | spontaneous => exact returnParams_zero c V _
  | statusOnly hm hs => rw [status_reply c V hm]; simp only [ts hs]; rfl
  | readTxPowerLevel hs =>
    apply fixed_ok c V (n := 4) (by decide)
    show (toTxPowerLevel c V _).mapOk _ = _
    rw [txPowerLevel_eq, ts hs, toInt8_twos]; rfl
  | readLocalVersionInformation hs =>
    apply fixed_ok c V (n := 9) (by decide)
    show (toLocalVersionInfo c V _).mapOk _ = _
    rw [localVersionInfo_eq, ts hs]; rfl
  | readLocalSupportedCommands hs hd =>
    rename_i f
    apply fixed_ok c V (n := 65) (by decide)
    show (toSupportedCommands c V _).mapOk _ = _
    obtain ⟨r, hr, heq⟩ := supportedCommands_eq c V _ f.arr
    rw [heq, ts hs, (hr f).mpr ⟨rfl, hd⟩]; rfl
  | readLocalSupportedFeatures hs hd =>
    apply fixed_ok c V (n := 9) (by decide)
    show (toSupportedFeatures c V _).mapOk _ = _
    rw [supportedFeatures_eq, ts hs, u64_eq_truncate (declared_lmpFeatures c) hd]; rfl
  | readBdAddr hs =>
    apply fixed_ok c V (n := 7) (by decide)
    show (toBdAddr c V _).mapOk _ = _
    rw [bdAddr_eq, ts hs]; rfl
  | readRssi hs =>
    apply fixed_ok c V (n := 4) (by decide)
    show (toReadRssi c V _).mapOk _ = _
    rw [readRssi_eq, ts hs, toInt8_twos]; rfl
  | leReadBufferSize hs =>
    apply fixed_ok c V (n := 4) (by decide)
    show (toLeReadBufferStatus c V _).mapOk _ = _
    rw [leReadBufferStatus_eq, ts hs]; rfl
  | leReadLocalSupportedFeatures hs hd =>
    apply fixed_ok c V (n := 9) (by decide)
    show (toLeLocalSupportedFeatures c V _).mapOk _ = _
    rw [leLocalSupportedFeatures_eq, ts hs, u64_eq_truncate (declared_leFeatures c) hd]; rfl
  | leReadAdvertisingChannelTxPower hs =>
    apply fixed_ok c V (n := 2) (by decide)
    show (toLeAdvertisingChannelTxPower c V _).mapOk _ = _
    rw [leAdvertisingChannelTxPower_eq, ts hs, toInt8_twos]; rfl
  | leReadWhiteListSize hs => rw [whiteList_reply]; simp only [ts hs]; rfl
  | leReadChannelMap hs hd =>
    rename_i m
    apply fixed_ok c V (n := 8) (by decide)
    show (toLeChannelMapParameters c V _).mapOk _ = _
    obtain ⟨r, hr, heq⟩ := channelMap_eq c V _ _ m.arr
    rw [heq, ts hs, (hr m).mpr ⟨rfl, hd⟩]; rfl
  | leEncrypt hs =>
    apply fixed_ok c V (n := 17) (by decide)
    show (toLeEncryptedData c V _).mapOk _ = _
    rw [leEncryptedData_eq, ts hs]; rfl
  | leRand hs =>
    apply fixed_ok c V (n := 9) (by decide)
    show (toRandomNumber c V _).mapOk _ = _
    rw [randomNumber_eq, ts hs]; rfl
  | leLongTermKeyRequestReply hs =>
    apply fixed_ok c V (n := 3) (by decide)
    show (toLeLtkRequestReply c V _).mapOk _ = _
    rw [leLtkRequestReply_eq, ts hs]; rfl
  | leLongTermKeyRequestNegativeReply hs =>
    apply fixed_ok c V (n := 3) (by decide)
    show (toLeLtkRequestReply c V _).mapOk _ = _
    rw [leLtkRequestReply_eq, ts hs]; rfl
  | leReadSupportedStates hs hd =>
    apply fixed_ok c V (n := 9) (by decide)
    show (toLeReadStates c V _).mapOk _ = _
    rw [leReadStates_eq, ts hs, (leStates_some c _ _).mpr ⟨rfl, hd⟩]; rfl
  | leTestEnd hs =>
    apply fixed_ok c V (n := 3) (by decide)
    show (toLeTestEnd c V _).mapOk _ = _
    rw [leTestEnd_eq, ts hs]; rfl

end Bt
