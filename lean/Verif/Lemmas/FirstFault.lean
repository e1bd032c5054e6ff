import Verif.Props.Returns

/-! # The first fault of an event packet decides the error -/

namespace Bt

open Spec

variable (c : Cfg) (V : Vendor)

theorem statusOk_of_min (hV : VendorReturns V) {code : UInt8} {ps : List UInt8} {i j : Nat} {b : UInt8}
    (hmin : ∀ j e', FaultAt c V code ps j e' → i ≤ j) (hs : StatusAt code ps j b) (hj : j < i) :
    ∃ s, tryStatus c V b = .ok s := by
  cases h : tryStatus c V b with
  | ok s => exact ⟨s, rfl⟩
  | err e =>
    obtain ⟨w, h1, h2, rfl⟩ := (tryStatus_err c V b e).mp h
    have := hmin _ _ (.status hs h1 h2)
    omega
  | panic => exact absurd h (tryStatus_panic c V hV b)

theorem reply_badStatus {o : UInt16} (hk : KnownReply o) {k b : UInt8} {ps : List UInt8}
    (hb : ps[0]? = some b) {e : EvError V.VErr} (he : tryStatus c V b = .err e)
    (hl : ∀ n, (o, n) ∈ fixedReturns → ps.length = n) :
    returnParams c V ⟨o⟩ (k :: le16 o ++ ps) = .err e := by
  rcases hk with hk | ⟨n, hk⟩
  · cases ps with
    | nil => simp at hb
    | cons st ps =>
      obtain rfl : st = b := Option.some.inj hb
      rcases (mem_openReturns c (VS := V.VStatus) (VR := V.VRet) o).mp hk with rfl | ⟨mk, hmk⟩
      · rw [whiteList_reply]
        simp only [he, Res.bind_err]
      · rw [status_reply c V hmk]
        simp only [he, Res.mapOk_err]
  · rw [fixed_reply c V hk]
    have hn := hl n hk
    clear hl
    revert hn hk
    apply fixed_cases (P := fun o n => ps.length = n → fixedParser c V o ps = .err e)
    and_intros
    · intro hl
      show (toTxPowerLevel c V ps).mapOk _ = _
      obtain ⟨st, h, x, rfl⟩ := txPowerLevel_shape ps hl
      obtain rfl : st = b := Option.some.inj hb
      rw [txPowerLevel_eq, he]; rfl
    · intro hl
      show (toLocalVersionInfo c V ps).mapOk _ = _
      obtain ⟨st, hv, hr, lv, m, ls, rfl⟩ := localVersionInfo_shape ps hl
      obtain rfl : st = b := Option.some.inj hb
      rw [localVersionInfo_eq, he]; rfl
    · intro hl
      show (toSupportedCommands c V ps).mapOk _ = _
      obtain ⟨st, m, rfl⟩ := supportedCommands_shape ps hl
      obtain rfl : st = b := Option.some.inj hb
      obtain ⟨r, -, heq⟩ := supportedCommands_eq c V st m
      rw [heq, he]; rfl
    · intro hl
      show (toSupportedFeatures c V ps).mapOk _ = _
      obtain ⟨st, x, rfl⟩ := supportedFeatures_shape ps hl
      obtain rfl : st = b := Option.some.inj hb
      rw [supportedFeatures_eq, he]; rfl
    · intro hl
      show (toBdAddr c V ps).mapOk _ = _
      obtain ⟨st, x, rfl⟩ := bdAddr_shape ps hl
      obtain rfl : st = b := Option.some.inj hb
      rw [bdAddr_eq, he]; rfl
    · intro hl
      show (toReadRssi c V ps).mapOk _ = _
      obtain ⟨st, h, x, rfl⟩ := readRssi_shape ps hl
      obtain rfl : st = b := Option.some.inj hb
      rw [readRssi_eq, he]; rfl
    · intro hl
      show (toLeReadBufferStatus c V ps).mapOk _ = _
      obtain ⟨st, h, x, rfl⟩ := leReadBufferStatus_shape ps hl
      obtain rfl : st = b := Option.some.inj hb
      rw [leReadBufferStatus_eq, he]; rfl
    · intro hl
      show (toLeLocalSupportedFeatures c V ps).mapOk _ = _
      obtain ⟨st, x, rfl⟩ := leLocalSupportedFeatures_shape ps hl
      obtain rfl : st = b := Option.some.inj hb
      rw [leLocalSupportedFeatures_eq, he]; rfl
    · intro hl
      show (toLeAdvertisingChannelTxPower c V ps).mapOk _ = _
      obtain ⟨st, x, rfl⟩ := leAdvertisingChannelTxPower_shape ps hl
      obtain rfl : st = b := Option.some.inj hb
      rw [leAdvertisingChannelTxPower_eq, he]; rfl
    · intro hl
      show (toLeChannelMapParameters c V ps).mapOk _ = _
      obtain ⟨st, h, m, rfl⟩ := channelMap_shape ps hl
      obtain rfl : st = b := Option.some.inj hb
      obtain ⟨r, -, heq⟩ := channelMap_eq c V st h m
      rw [heq, he]; rfl
    · intro hl
      show (toLeEncryptedData c V ps).mapOk _ = _
      obtain ⟨st, d, rfl⟩ := leEncryptedData_shape ps hl
      obtain rfl : st = b := Option.some.inj hb
      rw [leEncryptedData_eq, he]; rfl
    · intro hl
      show (toRandomNumber c V ps).mapOk _ = _
      obtain ⟨st, x, rfl⟩ := randomNumber_shape ps hl
      obtain rfl : st = b := Option.some.inj hb
      rw [randomNumber_eq, he]; rfl
    · intro hl
      show (toLeLtkRequestReply c V ps).mapOk _ = _
      obtain ⟨st, x, rfl⟩ := leLtkRequestReply_shape ps hl
      obtain rfl : st = b := Option.some.inj hb
      rw [leLtkRequestReply_eq, he]; rfl
    · intro hl
      show (toLeLtkRequestReply c V ps).mapOk _ = _
      obtain ⟨st, x, rfl⟩ := leLtkRequestReply_shape ps hl
      obtain rfl : st = b := Option.some.inj hb
      rw [leLtkRequestReply_eq, he]; rfl
    · intro hl
      show (toLeReadStates c V ps).mapOk _ = _
      obtain ⟨st, x, rfl⟩ := leReadStates_shape ps hl
      obtain rfl : st = b := Option.some.inj hb
      rw [leReadStates_eq, he]; rfl
    · intro hl
      show (toLeTestEnd c V ps).mapOk _ = _
      obtain ⟨st, x, rfl⟩ := leTestEnd_shape ps hl
      obtain rfl : st = b := Option.some.inj hb
      rw [leTestEnd_eq, he]; rfl

theorem len_of_no_fault {code : UInt8} {ps : List UInt8} {n : Nat}
    (hlen : ¬ ∃ a b, LengthFault (frame code ps) a b) (hp : ps.length ≤ 255) (h : (code, n) ∈ fixedParams) :
    ps.length = n :=
  Decidable.byContradiction fun hne => hlen ⟨_, _, .params h hp hne⟩

theorem metaLen_of_no_fault {sub : UInt8} {ps : List UInt8} {n : Nat}
    (hlen : ¬ ∃ a b, LengthFault (frame 0x3E (sub :: ps)) a b) (hp : (sub :: ps).length ≤ 255)
    (h : (sub, n) ∈ fixedMeta) : (sub :: ps).length = n := by
  simp only [List.length_cons] at hp ⊢
  exact Decidable.byContradiction fun hne => hlen ⟨_, _, .leMeta h (by omega) (by omega)⟩

theorem returnLen_of_no_fault {k : UInt8} {o : UInt16} {ps : List UInt8} {n : Nat}
    (hlen : ¬ ∃ a b, LengthFault (frame 0x0E (k :: le16 o ++ ps)) a b) (hp : (k :: le16 o ++ ps).length ≤ 255)
    (h : (o, n) ∈ fixedReturns) : ps.length = n := by
  simp at hp
  exact Decidable.byContradiction fun hne => hlen ⟨_, _, .returns h (by omega) hne⟩

theorem roleOk_of_min {ps : List UInt8} {i : Nat} {b : UInt8}
    (hmin : ∀ j e', FaultAt c V 0x3E (0x01 :: ps) j e' → i ≤ j) (hb : (0x01 :: ps)[4]? = some b) (hi : 4 < i) :
    ∃ r, ConnectionRole.tryFrom (VE := V.VErr) b = .ok r := by
  cases hr : ConnectionRole.tryFrom (VE := V.VErr) b with
  | panic => exact absurd hr (role_panic b)
  | ok r => exact ⟨r, rfl⟩
  | err e =>
    obtain ⟨h1, rfl⟩ := (role_err b e).mp hr
    have := hmin _ _ (.role hb h1)
    omega

theorem addrOk_of_min {ps : List UInt8} {i : Nat} {b : UInt8} (a : BdAddr)
    (hmin : ∀ j e', FaultAt c V 0x3E (0x01 :: ps) j e' → i ≤ j) (hb : (0x01 :: ps)[5]? = some b) (hi : 5 < i) :
    ∃ r, toBdAddrType b a = .ok r := by
  cases hr : toBdAddrType b a with
  | panic => exact absurd hr (addrType_panic b a)
  | ok r => exact ⟨r, rfl⟩
  | err e =>
    obtain ⟨h1, rfl⟩ := (addrType_err b a e).mp hr
    have := hmin _ _ (.address hb h1)
    omega

/-- A fault that no other fault precedes is the error. -/
theorem dispatch_first (hV : VendorReturns V) {code : UInt8} {ps : List UInt8} {i : Nat}
    {e : EvError V.VErr} (hp : ps.length ≤ 255) (hlen : ¬ ∃ a b, LengthFault (frame code ps) a b)
    (hf : FaultAt c V code ps i e) (hmin : ∀ j e', FaultAt c V code ps j e' → i ≤ j) :
    dispatch c V code ps = .err e := by
  cases hf with
  | status hst h1 h2 =>
    rename_i b w
    have he : tryStatus c V b = .err (.badStatus w) := (tryStatus_err c V b _).mpr ⟨w, h1, h2, rfl⟩
    cases hst with
    | first hm hb =>
      simp only [List.mem_cons, List.not_mem_nil, or_false] at hm
      rcases hm with rfl | rfl | rfl | rfl | rfl | rfl
      · obtain ⟨st, h, a, x, y, rfl⟩ := connectionComplete_shape ps (len_of_no_fault hlen hp (by decide))
        obtain rfl : st = b := Option.some.inj hb
        show (toConnectionComplete c V _ >>= _) = _
        rw [connectionComplete_eq, he]; rfl
      · obtain ⟨st, h, x, rfl⟩ := disconnectionComplete_shape ps (len_of_no_fault hlen hp (by decide))
        obtain rfl : st = b := Option.some.inj hb
        show (toDisconnectionComplete c V _ >>= _) = _
        rw [disconnectionComplete_eq, he]; rfl
      · obtain ⟨st, h, x, rfl⟩ := encryptionChange_shape ps (len_of_no_fault hlen hp (by decide))
        obtain rfl : st = b := Option.some.inj hb
        show (toEncryptionChange c V _ >>= _) = _
        rw [encryptionChange_eq, he]; rfl
      · obtain ⟨st, h, v, m, x, rfl⟩ := remoteVersionInfo_shape ps (len_of_no_fault hlen hp (by decide))
        obtain rfl : st = b := Option.some.inj hb
        show (toRemoteVersionInfo c V _ >>= _) = _
        rw [remoteVersionInfo_eq, he]; rfl
      · obtain ⟨st, n, o, rfl⟩ := commandStatus_shape ps (len_of_no_fault hlen hp (by decide))
        obtain rfl : st = b := Option.some.inj hb
        show (toCommandStatus c V _ >>= _) = _
        rw [commandStatus_eq, he]; rfl
      · obtain ⟨st, h, rfl⟩ := encryptionKeyRefreshComplete_shape ps (len_of_no_fault hlen hp (by decide))
        obtain rfl : st = b := Option.some.inj hb
        show (toEncryptionKeyRefreshComplete c V _ >>= _) = _
        rw [encryptionKeyRefreshComplete_eq, he]; rfl
    | second hm hb =>
      rename_i sub ps
      simp only [List.mem_cons, List.not_mem_nil, or_false] at hm
      show toLeMetaEvent c V (sub :: ps) = _
      rw [leMeta_eq]
      rcases hm with rfl | rfl | rfl | rfl
      · obtain ⟨sub, st, h, r, k, ad, a, l, t, x, heq⟩ :=
          leConnectionComplete_shape _ (metaLen_of_no_fault hlen hp (by decide))
        rw [heq] at hb
        obtain rfl : st = b := Option.some.inj hb
        show (toLeConnectionComplete c V (0x01 :: ps) >>= _) = _
        rw [heq, leConnectionComplete_eq, he]; rfl
      · obtain ⟨sub, st, h, a, l, t, heq⟩ :=
          leConnectionUpdateComplete_shape _ (metaLen_of_no_fault hlen hp (by decide))
        rw [heq] at hb
        obtain rfl : st = b := Option.some.inj hb
        show (toLeConnectionUpdateComplete c V (0x03 :: ps) >>= _) = _
        rw [heq, leConnectionUpdateComplete_eq, he]; rfl
      · obtain ⟨sub, st, h, x, heq⟩ :=
          leReadRemoteUsedFeaturesComplete_shape _ (metaLen_of_no_fault hlen hp (by decide))
        rw [heq] at hb
        obtain rfl : st = b := Option.some.inj hb
        show (toLeReadRemoteUsedFeaturesComplete c V (0x04 :: ps) >>= _) = _
        rw [heq, leReadRemoteUsedFeaturesComplete_eq, he]; rfl
      · obtain ⟨sub, st, h, x, y, heq⟩ :=
          lePhyUpdateComplete_shape _ (metaLen_of_no_fault hlen hp (by decide))
        rw [heq] at hb
        obtain rfl : st = b := Option.some.inj hb
        show (toLePhyUpdateComplete c V (0x0C :: ps) >>= _) = _
        rw [heq, lePhyUpdateComplete_eq, he]; rfl
    | reply hk hb =>
      show (CommandComplete.new c V _ >>= _) = _
      rw [commandComplete_eq, reply_badStatus c V hk hb he fun n hn => returnLen_of_no_fault hlen hp hn]
      rfl
  | reason hb h1 h2 =>
    rename_i b w
    have he : tryReason c V b = .err (.badReason w) := (tryReason_err c V b _).mpr ⟨w, h1, h2, rfl⟩
    obtain ⟨st, h, x, rfl⟩ := disconnectionComplete_shape ps (len_of_no_fault hlen hp (by decide))
    obtain rfl : x = b := Option.some.inj hb
    obtain ⟨s, hs⟩ := statusOk_of_min c V hV hmin (.first (b := st) (by decide) rfl) (by decide)
    show (toDisconnectionComplete c V _ >>= _) = _
    rw [disconnectionComplete_eq, hs, Res.bind_ok, he]; rfl
  | linkType hb h1 =>
    rename_i b
    obtain ⟨st, h, a, x, y, rfl⟩ := connectionComplete_shape ps (len_of_no_fault hlen hp (by decide))
    have g9 : (st :: le16 h ++ a.val.val ++ [x, y])[9]? = some x := addr_getElem a (st :: le16 h) [x, y] 0
    obtain rfl : x = b := by rw [g9] at hb; exact Option.some.inj hb
    obtain ⟨s, hs⟩ := statusOk_of_min c V hV hmin (.first (b := st) (by decide) rfl) (by decide)
    show (toConnectionComplete c V _ >>= _) = _
    rw [connectionComplete_eq, hs, Res.bind_ok, (linkType_err x _).mpr ⟨h1, rfl⟩]; rfl
  | encryptionEnabled hb h1 =>
    rename_i b
    obtain ⟨st, h, a, x, y, rfl⟩ := connectionComplete_shape ps (len_of_no_fault hlen hp (by decide))
    have g9 : (st :: le16 h ++ a.val.val ++ [x, y])[9]? = some x := addr_getElem a (st :: le16 h) [x, y] 0
    have g10 : (st :: le16 h ++ a.val.val ++ [x, y])[10]? = some y := addr_getElem a (st :: le16 h) [x, y] 1
    obtain rfl : y = b := by rw [g10] at hb; exact Option.some.inj hb
    obtain ⟨s, hs⟩ := statusOk_of_min c V hV hmin (.first (b := st) (by decide) rfl) (by decide)
    show (toConnectionComplete c V _ >>= _) = _
    rw [connectionComplete_eq, hs, Res.bind_ok]
    cases hx : LinkType.tryFrom (VE := V.VErr) x with
    | panic => exact absurd hx (linkType_panic x)
    | err e =>
      obtain ⟨h2, rfl⟩ := (linkType_err x e).mp hx
      have := hmin _ _ (.linkType g9 h2)
      omega
    | ok lt => rw [Res.bind_ok, (encryptionEnabled_err y _).mpr ⟨h1, rfl⟩]; rfl
  | encryption hb h1 =>
    rename_i b
    obtain ⟨st, h, x, rfl⟩ := encryptionChange_shape ps (len_of_no_fault hlen hp (by decide))
    obtain rfl : x = b := Option.some.inj hb
    obtain ⟨s, hs⟩ := statusOk_of_min c V hV hmin (.first (b := st) (by decide) rfl) (by decide)
    show (toEncryptionChange c V _ >>= _) = _
    rw [encryptionChange_eq, hs, Res.bind_ok, (encryption_err x _).mpr ⟨h1, rfl⟩]; rfl
  | overflowLinkType hb h1 =>
    rename_i b
    obtain ⟨x, rfl⟩ := dataBufferOverflow_shape ps (len_of_no_fault hlen hp (by decide))
    obtain rfl : x = b := Option.some.inj hb
    show (toDataBufferOverflow V _ >>= _) = _
    rw [dataBufferOverflow_eq, (linkType_err x _).mpr ⟨h1, rfl⟩]; rfl
  | event hm =>
    unfold dispatch
    split <;> first | rfl | exact absurd (by decide) hm
  | subevent hm =>
    show toLeMetaEvent c V (_ :: _) = _
    rw [leMeta_eq]
    split <;> first | rfl | exact absurd (by decide) hm
  | opcode h0 hk hv =>
    show (CommandComplete.new c V _ >>= _) = _
    rw [commandComplete_eq, returnParams_other c V h0 hk, if_pos (fun h => hv ((vendorOpcode_iff _).mpr h))]
    rfl
  | commandFlag hb hn =>
    rename_i k st ps i j
    have hm : (op 0x04 0x02, 65) ∈ fixedReturns := by decide
    obtain ⟨s, hs⟩ := statusOk_of_min c V hV hmin (.reply (b := st) (.inr ⟨_, hm⟩) rfl) (by decide)
    have hl := returnLen_of_no_fault hlen hp hm
    obtain ⟨st', m, heq⟩ := supportedCommands_shape (st :: ps) hl
    obtain ⟨rfl, rfl⟩ := List.cons.inj heq
    obtain ⟨r, hr, heq⟩ := supportedCommands_eq c V st m
    have hnone : r = none := by
      cases r with
      | none => rfl
      | some f => exact absurd (((hr f).mp rfl).2 i j hb) hn
    show (CommandComplete.new c V _ >>= _) = _
    rw [commandComplete_eq, fixed_reply c V hm]
    show (((toSupportedCommands c V (st :: m.val)).mapOk _ >>= _) >>= _) = _
    rw [heq, hs, hnone]; rfl
  | channelMap hb hn =>
    rename_i k st h m i j
    have hm : (op 0x08 0x15, 8) ∈ fixedReturns := by decide
    have hsplit : k :: le16 (op 0x08 0x15) ++ st :: le16 h ++ m.val =
        k :: le16 (op 0x08 0x15) ++ (st :: le16 h ++ m.val) := by rw [List.append_assoc]
    rw [hsplit] at hmin ⊢
    obtain ⟨s, hs⟩ := statusOk_of_min c V hV hmin (.reply (b := st) (.inr ⟨_, hm⟩) rfl) (by decide)
    obtain ⟨r, hr, heq⟩ := channelMap_eq c V st h m
    have hnone : r = none := by
      cases r with
      | none => rfl
      | some f => exact absurd (((hr f).mp rfl).2 i j hb) hn
    show (CommandComplete.new c V _ >>= _) = _
    rw [commandComplete_eq, fixed_reply c V hm]
    show (((toLeChannelMapParameters c V (st :: le16 h ++ m.val)).mapOk _ >>= _) >>= _) = _
    rw [heq, hs, hnone]; rfl
  | leStates hb hn =>
    rename_i k st x j
    have hm : (op 0x08 0x1C, 9) ∈ fixedReturns := by decide
    obtain ⟨s, hs⟩ := statusOk_of_min c V hV hmin (.reply (b := st) (.inr ⟨_, hm⟩) rfl) (by decide)
    have hnone : fromBits c leStates x = none := by
      cases hf : fromBits c leStates x with
      | none => rfl
      | some f => exact absurd (((leStates_some c x f).mp hf).2 j hb) hn
    show (CommandComplete.new c V _ >>= _) = _
    rw [commandComplete_eq, fixed_reply c V hm]
    show (((toLeReadStates c V (st :: le64 x)).mapOk _ >>= _) >>= _) = _
    rw [leReadStates_eq, hs, hnone]; rfl
  | role hb h1 =>
    rename_i ps b
    obtain ⟨sub, st, h, r, k, ad, a, l, t, x, heq⟩ :=
      leConnectionComplete_shape _ (metaLen_of_no_fault hlen hp (by decide))
    obtain ⟨rfl, rfl⟩ := List.cons.inj heq
    have g4 : (0x01 :: st :: le16 h ++ r :: k :: ad.val.val ++ le16 a ++ le16 l ++ le16 t ++ [x])[4]? = some r := rfl
    have g5 : (0x01 :: st :: le16 h ++ r :: k :: ad.val.val ++ le16 a ++ le16 l ++ le16 t ++ [x])[5]? = some k := rfl
    obtain ⟨s, hs⟩ := statusOk_of_min c V hV hmin (.second (b := st) (by decide) rfl) (by decide)
    obtain rfl : r = b := Option.some.inj hb
    show toLeMetaEvent c V (0x01 :: _) = _
    rw [leMeta_eq]
    show (toLeConnectionComplete c V (0x01 :: st :: le16 h ++ r :: k :: ad.val.val ++ le16 a ++ le16 l ++ le16 t ++
      [x]) >>= _) = _
    rw [leConnectionComplete_eq, hs, Res.bind_ok]
    rw [(role_err r _).mpr ⟨h1, rfl⟩]; rfl
  | address hb h1 =>
    rename_i ps b
    obtain ⟨sub, st, h, r, k, ad, a, l, t, x, heq⟩ :=
      leConnectionComplete_shape _ (metaLen_of_no_fault hlen hp (by decide))
    obtain ⟨rfl, rfl⟩ := List.cons.inj heq
    have g4 : (0x01 :: st :: le16 h ++ r :: k :: ad.val.val ++ le16 a ++ le16 l ++ le16 t ++ [x])[4]? = some r := rfl
    have g5 : (0x01 :: st :: le16 h ++ r :: k :: ad.val.val ++ le16 a ++ le16 l ++ le16 t ++ [x])[5]? = some k := rfl
    obtain ⟨s, hs⟩ := statusOk_of_min c V hV hmin (.second (b := st) (by decide) rfl) (by decide)
    obtain rfl : k = b := Option.some.inj hb
    obtain ⟨role, hrole⟩ := roleOk_of_min c V hmin g4 (by decide)
    show toLeMetaEvent c V (0x01 :: _) = _
    rw [leMeta_eq]
    show (toLeConnectionComplete c V (0x01 :: st :: le16 h ++ r :: k :: ad.val.val ++ le16 a ++ le16 l ++ le16 t ++
      [x]) >>= _) = _
    rw [leConnectionComplete_eq, hs, Res.bind_ok]
    rw [hrole, Res.bind_ok, (addrType_err k ad _).mpr ⟨h1, rfl⟩]; rfl
  | interval hpre h1 h2 h3 =>
    rename_i pre a l t ps e lo tmo
    have hl := metaLen_of_no_fault (n := 19) hlen hp (by decide)
    have hl : ps.length = 1 := by simp [hpre] at hl; omega
    match pre, hpre with
    | [st, h0, h1', r, k, a0, a1, a2, a3, a4, a5], _ =>
    match ps, hl with
    | [x], _ =>
    obtain ⟨h, hh⟩ := le16_exists h0 h1'
    generalize hq : 0x01 :: [st, h0, h1', r, k, a0, a1, a2, a3, a4, a5] ++ le16 a ++ le16 l ++ le16 t ++ [x] = q
      at hmin hp hlen
    let ad : BdAddr := ⟨⟨[a0, a1, a2, a3, a4, a5], rfl⟩⟩
    have hq' : q = 0x01 :: st :: le16 h ++ r :: k :: ad.val.val ++ le16 a ++ le16 l ++ le16 t ++ [x] := by
      rw [← hq, ← hh]; rfl
    clear hq
    subst hq'
    have g4 : (0x01 :: st :: le16 h ++ r :: k :: ad.val.val ++ le16 a ++ le16 l ++ le16 t ++ [x])[4]? = some r := rfl
    have g5 : (0x01 :: st :: le16 h ++ r :: k :: ad.val.val ++ le16 a ++ le16 l ++ le16 t ++ [x])[5]? = some k := rfl
    obtain ⟨s, hs⟩ := statusOk_of_min c V hV hmin (.second (b := st) (by decide) rfl) (by decide)
    obtain ⟨role, hrole⟩ := roleOk_of_min c V hmin g4 (by decide)
    obtain ⟨peer, hpeer⟩ := addrOk_of_min c V ad hmin g5 (by decide)
    show toLeMetaEvent c V (0x01 :: _) = _
    rw [leMeta_eq]
    show (toLeConnectionComplete c V (0x01 :: st :: le16 h ++ r :: k :: ad.val.val ++ le16 a ++ le16 l ++ le16 t ++
      [x]) >>= _) = _
    rw [leConnectionComplete_eq, hs, Res.bind_ok]
    rw [hrole, Res.bind_ok, hpeer, Res.mapErr_ok, Res.bind_ok, (interval_err_iff a l t e).mpr ⟨lo, tmo, h1, h2, h3⟩]
    rfl
  | clock hb h1 =>
    rename_i ps b
    obtain ⟨sub, st, h, r, k, ad, a, l, t, x, heq⟩ :=
      leConnectionComplete_shape _ (metaLen_of_no_fault hlen hp (by decide))
    obtain ⟨rfl, rfl⟩ := List.cons.inj heq
    have g4 : (0x01 :: st :: le16 h ++ r :: k :: ad.val.val ++ le16 a ++ le16 l ++ le16 t ++ [x])[4]? = some r := rfl
    have g5 : (0x01 :: st :: le16 h ++ r :: k :: ad.val.val ++ le16 a ++ le16 l ++ le16 t ++ [x])[5]? = some k := rfl
    obtain ⟨s, hs⟩ := statusOk_of_min c V hV hmin (.second (b := st) (by decide) rfl) (by decide)
    have g18 : (0x01 :: st :: le16 h ++ r :: k :: ad.val.val ++ le16 a ++ le16 l ++ le16 t ++ [x])[18]? = some x := by
      obtain ⟨a0, a1, a2, a3, a4, a5, rfl⟩ := addr_cases ad
      rfl
    obtain rfl : x = b := Option.some.inj (g18.symm.trans hb)
    obtain ⟨role, hrole⟩ := roleOk_of_min c V hmin g4 (by decide)
    obtain ⟨peer, hpeer⟩ := addrOk_of_min c V ad hmin g5 (by decide)
    show toLeMetaEvent c V (0x01 :: _) = _
    rw [leMeta_eq]
    show (toLeConnectionComplete c V (0x01 :: st :: le16 h ++ r :: k :: ad.val.val ++ le16 a ++ le16 l ++ le16 t ++
      [x]) >>= _) = _
    rw [leConnectionComplete_eq, hs, Res.bind_ok]
    rw [hrole, Res.bind_ok, hpeer, Res.mapErr_ok, Res.bind_ok]
    cases hi : FixedConnectionInterval.fromBytes (le16 a ++ le16 l ++ le16 t) with
    | panic => exact absurd hi (interval_panic a l t)
    | err e =>
      obtain ⟨lo, tmo, h2, h3, h4⟩ := interval_err a l t e hi
      have := FaultAt.interval (c := c) (V := V) (pre := st :: le16 h ++ r :: k :: ad.val.val)
        (a := a) (l := l) (t := t) (ps := [x]) (by simp [le16, le, ad.val.len]) h2 h3 h4
      have := hmin 12 _ (by simpa using this)
      omega
    | ok iv => rw [Res.mapErr_ok, Res.bind_ok, (clock_err x _).mpr ⟨h1, rfl⟩]; rfl
  | report ha hf =>
    rename_i n as bs
    show toLeMetaEvent c V (0x02 :: _) = _
    rw [leMeta_eq]
    show (toLeAdvertisingReport (0x02 :: n :: (advsBytes as ++ bs)) >>= _) = _
    rw [report_eq _ _ _ (by simp at hp ⊢; omega), checkLoop_fault as ha bs hf]; rfl
  | updateInterval hpre h1 h2 h3 =>
    rename_i pre a l t ps e lo tmo
    have hl := metaLen_of_no_fault (n := 10) hlen hp (by decide)
    obtain rfl : ps = [] := List.length_eq_zero_iff.mp (by simp [hpre] at hl; omega)
    match pre, hpre with
    | [st, h0, h1'], _ =>
    obtain ⟨h, hh⟩ := le16_exists h0 h1'
    generalize hq : 0x03 :: [st, h0, h1'] ++ le16 a ++ le16 l ++ le16 t ++ [] = q at hmin hp hlen
    have hq' : q = 0x03 :: st :: le16 h ++ le16 a ++ le16 l ++ le16 t := by
      rw [← hq, ← hh, List.append_nil]
    clear hq
    subst hq'
    obtain ⟨s, hs⟩ := statusOk_of_min c V hV hmin (.second (b := st) (by decide) rfl) (by decide)
    show toLeMetaEvent c V (0x03 :: _) = _
    rw [leMeta_eq]
    show (toLeConnectionUpdateComplete c V (0x03 :: st :: le16 h ++ le16 a ++ le16 l ++ le16 t) >>= _) = _
    rw [leConnectionUpdateComplete_eq, hs, Res.bind_ok, (interval_err_iff a l t e).mpr ⟨lo, tmo, h1, h2, h3⟩]
    rfl
  | features hb hn =>
    rename_i st h x j
    obtain ⟨s, hs⟩ := statusOk_of_min c V hV hmin (.second (b := st) (by decide) rfl) (by decide)
    have hnone : fromBits c linkLayerFeature x = none := by
      cases hf : fromBits c linkLayerFeature x with
      | none => rfl
      | some f => exact absurd (((linkLayerFeature_some c x f).mp hf).2 j hb) hn
    show toLeMetaEvent c V (0x04 :: _) = _
    rw [leMeta_eq]
    show (toLeReadRemoteUsedFeaturesComplete c V (0x04 :: st :: le16 h ++ le64 x) >>= _) = _
    rw [leReadRemoteUsedFeaturesComplete_eq, hs, Res.bind_ok, hnone]; rfl
  | txPhy hb h1 =>
    rename_i ps b
    obtain ⟨sub, st, h, x, y, heq⟩ :=
      lePhyUpdateComplete_shape _ (metaLen_of_no_fault hlen hp (by decide))
    obtain ⟨rfl, rfl⟩ := List.cons.inj heq
    obtain rfl : x = b := Option.some.inj hb
    obtain ⟨s, hs⟩ := statusOk_of_min c V hV hmin (.second (b := st) (by decide) rfl) (by decide)
    show toLeMetaEvent c V (0x0C :: _) = _
    rw [leMeta_eq]
    show (toLePhyUpdateComplete c V (0x0C :: st :: le16 h ++ [x, y]) >>= _) = _
    rw [lePhyUpdateComplete_eq, hs, Res.bind_ok, (phy_err x _).mpr ⟨h1, rfl⟩]; rfl
  | rxPhy hb h1 =>
    rename_i ps b
    obtain ⟨sub, st, h, x, y, heq⟩ :=
      lePhyUpdateComplete_shape _ (metaLen_of_no_fault hlen hp (by decide))
    obtain ⟨rfl, rfl⟩ := List.cons.inj heq
    obtain rfl : y = b := Option.some.inj hb
    obtain ⟨s, hs⟩ := statusOk_of_min c V hV hmin (.second (b := st) (by decide) rfl) (by decide)
    show toLeMetaEvent c V (0x0C :: _) = _
    rw [leMeta_eq]
    show (toLePhyUpdateComplete c V (0x0C :: st :: le16 h ++ [x, y]) >>= _) = _
    rw [lePhyUpdateComplete_eq, hs, Res.bind_ok]
    cases hx : Phy.tryFrom (VE := V.VErr) x with
    | panic => exact absurd hx (phy_panic x)
    | err e =>
      obtain ⟨h2, rfl⟩ := (phy_err x e).mp hx
      have := hmin _ _ (.txPhy rfl h2)
      omega
    | ok tx => rw [Res.bind_ok, (phy_err y _).mpr ⟨h1, rfl⟩]; rfl
  | vendorEvent h =>
    show (V.eventNew ps >>= _) = _
    rw [h]; rfl
  | vendorReturn hv h =>
    rename_i k o ps
    have h0 : o ≠ 0 := by rintro rfl; exact absurd hv (by decide)
    show (CommandComplete.new c V _ >>= _) = _
    rw [commandComplete_eq, returnParams_other c V h0 (fun hk => not_vendor_of_known hk hv),
      if_neg (by rw [ne_eq, Classical.not_not]; exact (vendorOpcode_iff o).mp hv), h]
    rfl

end Bt
