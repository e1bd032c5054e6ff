import Verif.Lemmas.Returns

/-! # Fixed-length return parameters: results, errors and panics -/

namespace Bt

open Spec

variable (c : Cfg) (V : Vendor)

section Simple
variable {α β : Type}

end Simple

theorem fixedParser_len {o : UInt16} {n : Nat} (h : (o, n) ∈ fixedReturns) (ps : List UInt8)
    (hl : ps.length ≠ n) : fixedParser c V o ps = .err (.badLength ps.length n) := by
  revert hl
  revert h
  apply fixed_cases (P := fun o n => ps.length ≠ n → fixedParser c V o ps = .err (.badLength ps.length n))
  have g {α : Type} (f : Res (EvError V.VErr) α) (mk : α → ReturnParameters V.VStatus V.VRet) (n : Nat)
      (R : Res (EvError V.VErr) (ReturnParameters V.VStatus V.VRet)) (hR : R = f.mapOk mk)
      (h : ps.length ≠ n → f = .err (.badLength ps.length n)) :
      ps.length ≠ n → R = .err (.badLength ps.length n) := by
    intro hn; rw [hR, h hn]; rfl
  exact ⟨g _ _ _ _ rfl (txPowerLevel_len c V ps), g _ _ _ _ rfl (localVersionInfo_len c V ps),
    g _ _ _ _ rfl (supportedCommands_len c V ps), g _ _ _ _ rfl (supportedFeatures_len c V ps),
    g _ _ _ _ rfl (bdAddr_len c V ps), g _ _ _ _ rfl (readRssi_len c V ps),
    g _ _ _ _ rfl (leReadBufferStatus_len c V ps), g _ _ _ _ rfl (leLocalSupportedFeatures_len c V ps),
    g _ _ _ _ rfl (leAdvertisingChannelTxPower_len c V ps), g _ _ _ _ rfl (channelMap_len c V ps),
    g _ _ _ _ rfl (leEncryptedData_len c V ps), g _ _ _ _ rfl (randomNumber_len c V ps),
    g _ _ _ _ rfl (leLtkRequestReply_len c V ps), g _ _ _ _ rfl (leLtkRequestReply_len c V ps),
    g _ _ _ _ rfl (leReadStates_len c V ps), g _ _ _ _ rfl (leTestEnd_len c V ps)⟩

/-- What can happen to a fixed-length reply of the right length. -/
inductive Outcome (o : UInt16) (k : UInt8) (ps : List UInt8) :
    Res (EvError V.VErr) (ReturnParameters V.VStatus V.VRet) → Prop where
  | ok {r} : Returns c V o ps r → Outcome o k ps (.ok r)
  | err {i e} : FaultAt c V 0x0E (k :: le16 o ++ ps) i e → Outcome o k ps (.err e)
  | panic : ¬ VendorReturns V → Outcome o k ps .panic

theorem outcome_status {o : UInt16} {k st : UInt8} {ps : List UInt8} (hk : KnownReply o)
    {F : Status V.VStatus → Res (EvError V.VErr) (ReturnParameters V.VStatus V.VRet)}
    (h : ∀ s, StatusByte c V st s → Outcome c V o k (st :: ps) (F s)) :
    Outcome c V o k (st :: ps) (tryStatus c V st >>= F) := by
  cases hs : tryStatus c V st with
  | ok s => exact h s ((tryStatus_ok_iff c V st s).mp hs)
  | err e =>
    obtain ⟨w, h1, h2, rfl⟩ := (tryStatus_err c V st e).mp hs
    exact .err (.status (.reply hk rfl) h1 h2)
  | panic => exact .panic fun hV => tryStatus_panic c V hV st hs

theorem mapOk_bind {ε α β γ : Type} (x : Res ε α) (f : α → Res ε β) (mk : β → γ) :
    (x >>= f).mapOk mk = (x >>= fun a => (f a).mapOk mk) := by
  cases x <;> rfl

theorem fixedParser_outcome {o : UInt16} {n : Nat} (h : (o, n) ∈ fixedReturns) (k : UInt8)
    (ps : List UInt8) (hl : ps.length = n) : Outcome c V o k ps (fixedParser c V o ps) := by
  have hk : KnownReply o := .inr ⟨n, h⟩
  revert hl hk
  revert h
  apply fixed_cases (P := fun o n => ps.length = n → KnownReply o → Outcome c V o k ps (fixedParser c V o ps))
  and_intros
  · intro hl hk
    show Outcome c V _ k ps ((toTxPowerLevel c V ps).mapOk .readTxPowerLevel)
    obtain ⟨st, h, x, rfl⟩ := txPowerLevel_shape ps hl
    rw [txPowerLevel_eq, mapOk_bind]
    apply outcome_status c V hk
    intro s hs
    obtain ⟨x, rfl⟩ := twos_exists x
    rw [toInt8_twos]
    exact .ok (.readTxPowerLevel hs)
  · intro hl hk
    show Outcome c V _ k ps ((toLocalVersionInfo c V ps).mapOk .readLocalVersionInformation)
    obtain ⟨st, hv, hr, lv, m, ls, rfl⟩ := localVersionInfo_shape ps hl
    rw [localVersionInfo_eq, mapOk_bind]
    exact outcome_status c V hk fun s hs => .ok (.readLocalVersionInformation hs)
  · intro hl hk
    show Outcome c V _ k ps ((toSupportedCommands c V ps).mapOk .readLocalSupportedCommands)
    obtain ⟨st, m, rfl⟩ := supportedCommands_shape ps hl
    obtain ⟨r, hr, heq⟩ := supportedCommands_eq c V st m
    rw [heq, mapOk_bind]
    apply outcome_status c V hk
    intro s hs
    cases r with
    | some f =>
      obtain ⟨rfl, hd⟩ := (hr f).mp rfl
      exact .ok (.readLocalSupportedCommands hs hd)
    | none =>
      have : ¬ ∀ i j, HasBit m.val i j → CommandBit c i j := by
        intro hd
        have := (hr ⟨m⟩).mpr ⟨rfl, hd⟩
        cases this
      simp only [Classical.not_forall] at this
      obtain ⟨i, j, h1, h2⟩ := this
      exact .err (.commandFlag h1 h2)
  · intro hl hk
    show Outcome c V _ k ps ((toSupportedFeatures c V ps).mapOk .readLocalSupportedFeatures)
    obtain ⟨st, x, rfl⟩ := supportedFeatures_shape ps hl
    rw [supportedFeatures_eq, mapOk_bind]
    exact outcome_status c V hk fun s hs =>
      .ok (.readLocalSupportedFeatures hs (lmpFeatures_truncate c x))
  · intro hl hk
    show Outcome c V _ k ps ((toBdAddr c V ps).mapOk .readBdAddr)
    obtain ⟨st, a, rfl⟩ := bdAddr_shape ps hl
    rw [bdAddr_eq, mapOk_bind]
    exact outcome_status c V hk fun s hs => .ok (.readBdAddr hs)
  · intro hl hk
    show Outcome c V _ k ps ((toReadRssi c V ps).mapOk .readRssi)
    obtain ⟨st, h, x, rfl⟩ := readRssi_shape ps hl
    rw [readRssi_eq, mapOk_bind]
    apply outcome_status c V hk
    intro s hs
    obtain ⟨x, rfl⟩ := twos_exists x
    rw [toInt8_twos]
    exact .ok (.readRssi hs)
  · intro hl hk
    show Outcome c V _ k ps ((toLeReadBufferStatus c V ps).mapOk .leReadBufferSize)
    obtain ⟨st, l, n, rfl⟩ := leReadBufferStatus_shape ps hl
    rw [leReadBufferStatus_eq, mapOk_bind]
    exact outcome_status c V hk fun s hs => .ok (.leReadBufferSize hs)
  · intro hl hk
    show Outcome c V _ k ps ((toLeLocalSupportedFeatures c V ps).mapOk .leReadLocalSupportedFeatures)
    obtain ⟨st, x, rfl⟩ := leLocalSupportedFeatures_shape ps hl
    rw [leLocalSupportedFeatures_eq, mapOk_bind]
    exact outcome_status c V hk fun s hs =>
      .ok (.leReadLocalSupportedFeatures hs (leFeatures_truncate c x))
  · intro hl hk
    show Outcome c V _ k ps ((toLeAdvertisingChannelTxPower c V ps).mapOk .leReadAdvertisingChannelTxPower)
    obtain ⟨st, x, rfl⟩ := leAdvertisingChannelTxPower_shape ps hl
    rw [leAdvertisingChannelTxPower_eq, mapOk_bind]
    apply outcome_status c V hk
    intro s hs
    obtain ⟨x, rfl⟩ := twos_exists x
    rw [toInt8_twos]
    exact .ok (.leReadAdvertisingChannelTxPower hs)
  · intro hl hk
    show Outcome c V _ k ps ((toLeChannelMapParameters c V ps).mapOk .leReadChannelMap)
    obtain ⟨st, h, m, rfl⟩ := channelMap_shape ps hl
    obtain ⟨r, hr, heq⟩ := channelMap_eq c V st h m
    rw [heq, mapOk_bind]
    apply outcome_status c V hk
    intro s hs
    cases r with
    | some f =>
      obtain ⟨rfl, hd⟩ := (hr f).mp rfl
      exact .ok (.leReadChannelMap hs hd)
    | none =>
      have : ¬ ∀ i j, HasBit m.val i j → ChannelBit i j := by
        intro hd
        have := (hr ⟨m⟩).mpr ⟨rfl, hd⟩
        cases this
      simp only [Classical.not_forall] at this
      obtain ⟨i, j, h1, h2⟩ := this
      have := FaultAt.channelMap (V := V) (c := c) (k := k) (st := st) (h := h) h1 h2
      rw [List.append_assoc] at this
      exact .err this
  · intro hl hk
    show Outcome c V _ k ps ((toLeEncryptedData c V ps).mapOk .leEncrypt)
    obtain ⟨st, d, rfl⟩ := leEncryptedData_shape ps hl
    rw [leEncryptedData_eq, mapOk_bind]
    exact outcome_status c V hk fun s hs => .ok (.leEncrypt hs)
  · intro hl hk
    show Outcome c V _ k ps ((toRandomNumber c V ps).mapOk .leRand)
    obtain ⟨st, x, rfl⟩ := randomNumber_shape ps hl
    rw [randomNumber_eq, mapOk_bind]
    exact outcome_status c V hk fun s hs => .ok (.leRand hs)
  · intro hl hk
    show Outcome c V _ k ps ((toLeLtkRequestReply c V ps).mapOk .leLongTermKeyRequestReply)
    obtain ⟨st, h, rfl⟩ := leLtkRequestReply_shape ps hl
    rw [leLtkRequestReply_eq, mapOk_bind]
    exact outcome_status c V hk fun s hs => .ok (.leLongTermKeyRequestReply hs)
  · intro hl hk
    show Outcome c V _ k ps ((toLeLtkRequestReply c V ps).mapOk .leLongTermKeyRequestNegativeReply)
    obtain ⟨st, h, rfl⟩ := leLtkRequestReply_shape ps hl
    rw [leLtkRequestReply_eq, mapOk_bind]
    exact outcome_status c V hk fun s hs => .ok (.leLongTermKeyRequestNegativeReply hs)
  · intro hl hk
    show Outcome c V _ k ps ((toLeReadStates c V ps).mapOk .leReadSupportedStates)
    obtain ⟨st, x, rfl⟩ := leReadStates_shape ps hl
    rw [leReadStates_eq, mapOk_bind]
    apply outcome_status c V hk
    intro s hs
    cases hf : fromBits c leStates x with
    | some f =>
      obtain ⟨rfl, hd⟩ := (leStates_some c x f).mp hf
      exact .ok (.leReadSupportedStates hs hd)
    | none =>
      have : ¬ ∀ j, x.toNat.testBit j = true → LeStateBit j := by
        intro hd
        have := (leStates_some c x x).mpr ⟨rfl, hd⟩
        rw [hf] at this
        cases this
      simp only [Classical.not_forall] at this
      obtain ⟨j, h1, h2⟩ := this
      exact .err (.leStates h1 h2)
  · intro hl hk
    show Outcome c V _ k ps ((toLeTestEnd c V ps).mapOk .leTestEnd)
    obtain ⟨st, n, rfl⟩ := leTestEnd_shape ps hl
    rw [leTestEnd_eq, mapOk_bind]
    exact outcome_status c V hk fun s hs => .ok (.leTestEnd hs)

end Bt
