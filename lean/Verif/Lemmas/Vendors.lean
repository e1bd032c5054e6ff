import Verif.Spec.Vendors
import Verif.Lemmas.Status
import Verif.Lemmas.EventFields
import Verif.Lemmas.AdvReports

/-! # Decoding with one vendor and with another, step by step -/

namespace Bt

open Spec

section
variable {X X' α β γ δ : Type}

/-- `y` does what `x` does, up to `K` and `f`; where `K` says nothing about an error of `x`, `y` is free. -/
def Follows (K : EvError X → Option (EvError X')) (f : α → β) (x : Res (EvError X) α)
    (y : Res (EvError X') β) : Prop :=
  (∀ a, x = .ok a → y = .ok (f a)) ∧ (∀ e e', x = .err e → K e = some e' → y = .err e') ∧
    (x = .panic → y = .panic)

/-- The two ways in which errors are carried over. -/
def errK (keep : Bool) (g : X → Option X') : EvError X → Option (EvError X')
  | .unknownEvent code => some (.unknownEvent code)
  | .badLength actual expected => some (.badLength actual expected)
  | .badStatus b => if keep then some (.badStatus b) else none
  | .badLinkType b => some (.badLinkType b)
  | .badEncryptionEnabledValue b => some (.badEncryptionEnabledValue b)
  | .badReason b => if keep then some (.badReason b) else none
  | .badEncryptionType b => some (.badEncryptionType b)
  | .unknownOpcode o => some (.unknownOpcode o)
  | .badCommandFlag => some .badCommandFlag
  | .invalidChannelMap bits => some (.invalidChannelMap bits)
  | .invalidLeStates bits => some (.invalidLeStates bits)
  | .badLeConnectionRole b => some (.badLeConnectionRole b)
  | .badLeAddressType b => some (.badLeAddressType b)
  | .badConnectionInterval e => some (.badConnectionInterval e)
  | .badLeCentralClockAccuracy b => some (.badLeCentralClockAccuracy b)
  | .leAdvertisementReportIncomplete => some .leAdvertisementReportIncomplete
  | .badLeAdvertisementType b => some (.badLeAdvertisementType b)
  | .badRemoteUsedFeatureFlag bits => some (.badRemoteUsedFeatureFlag bits)
  | .badPhy b => some (.badPhy b)
  | .vendor e => (g e).map .vendor

theorem Follows.bind {K : EvError X → Option (EvError X')} {f : α → β} {f' : γ → δ}
    {x : Res (EvError X) α} {y : Res (EvError X') β} {k : α → Res (EvError X) γ}
    {k' : β → Res (EvError X') δ} (h : Follows K f x y) (hk : ∀ a, Follows K f' (k a) (k' (f a))) :
    Follows K f' (x >>= k) (y >>= k') := by
  cases x with
  | ok a => rw [h.1 a rfl]; exact hk a
  | err e =>
    refine ⟨fun _ h' => by simp at h', fun e1 e' h1 h2 => ?_, fun h' => by simp at h'⟩
    rw [Res.bind_err] at h1
    injection h1 with h1
    subst h1
    rw [h.2.1 e e' rfl h2]; rfl
  | panic =>
    refine ⟨fun _ h' => by simp at h', fun e1 e' h1 h2 => by simp at h1, fun _ => ?_⟩
    rw [h.2.2 rfl]; rfl

variable {K : EvError X → Option (EvError X')}

theorem Follows.ok {f : α → β} {a : α} {b : β} (h : b = f a) :
    Follows K f (.ok a) (.ok b) := by
  subst h
  exact ⟨fun _ h => by (cases h; rfl), fun _ _ h => by (cases h), fun h => by (cases h)⟩

theorem Follows.err {f : α → β} {e : EvError X} {e' : EvError X'} (h : K e = some e') :
    Follows K f (.err e) (.err e') := by
  refine ⟨fun _ h => by (cases h), fun _ _ h1 h2 => ?_, fun h => by cases h⟩
  cases h1; rw [h] at h2; cases h2; rfl

theorem Follows.panic {f : α → β} : Follows K f .panic .panic :=
  ⟨fun _ h => by (cases h), fun _ _ h => by (cases h), fun _ => rfl⟩

theorem Follows.free {f : α → β} {e : EvError X} {y : Res (EvError X') β} (h : K e = none) :
    Follows K f (.err e) y := by
  refine ⟨fun _ h => by (cases h), fun _ _ h1 h2 => ?_, fun h => by cases h⟩
  cases h1; rw [h] at h2; cases h2

theorem Follows.ite {f : α → β} {p : Prop} [Decidable p] {x x' : Res (EvError X) α}
    {y y' : Res (EvError X') β} (h : Follows K f x y) (h' : Follows K f x' y') :
    Follows K f (if p then x else x') (if p then y else y') := by
  by_cases hp : p
  · rw [if_pos hp, if_pos hp]; exact h
  · rw [if_neg hp, if_neg hp]; exact h'

theorem follows_idx (bs : List UInt8) (i : Nat) : Follows K id (idx bs i) (idx bs i) := by
  unfold idx; cases bs[i]? <;> first | exact .ok rfl | exact .panic

theorem follows_sliceFrom (bs : List UInt8) (i : Nat) : Follows K id (sliceFrom bs i) (sliceFrom bs i) := by
  unfold sliceFrom; split <;> first | exact .ok rfl | exact .panic

theorem follows_slice (bs : List UInt8) (i j : Nat) : Follows K id (slice bs i j) (slice bs i j) := by
  unfold slice; split <;> first | exact .ok rfl | exact .panic

theorem follows_toArr (n : Nat) (bs : List UInt8) : Follows K id (toArr n bs) (toArr n bs) := by
  unfold toArr; split <;> first | exact .ok rfl | exact .panic

theorem follows_copyRange (buf : List UInt8) (a b : Nat) (src : List UInt8) :
    Follows K id (copyRange buf a b src) (copyRange buf a b src) := by
  unfold copyRange; split <;> first | exact .ok rfl | exact .panic

theorem follows_readU16From (bs : List UInt8) (i : Nat) :
    Follows K id (readU16From bs i) (readU16From bs i) := by
  refine .bind (follows_sliceFrom bs i) fun a => ?_
  unfold readU16; dsimp only [id]; split <;> first | exact .ok rfl | exact .panic

theorem follows_readU64From (bs : List UInt8) (i : Nat) :
    Follows K id (readU64From bs i) (readU64From bs i) := by
  refine .bind (follows_sliceFrom bs i) fun a => ?_
  unfold readU64; dsimp only [id]; split <;> first | exact .ok rfl | exact .panic

theorem follows_assert (b : Bool) : Follows K id (Res.assert b) (Res.assert b) := by
  unfold Res.assert; split <;> first | exact .ok rfl | exact .panic

theorem follows_allLoop {n : Nat} (c : Cfg) : (t : List ArrFlagDecl) → (a : Arr n) →
    Follows K id (BFlags.allLoop c t a) (BFlags.allLoop c t a)
  | [], _ => .ok rfl
  | d :: ds, a => by
    unfold BFlags.allLoop
    split
    · refine .bind (f := id) ?_ fun a => follows_allLoop c ds a
      unfold orByte; split <;> first | exact .ok rfl | exact .panic
    · exact follows_allLoop c ds a

theorem follows_loopAll (p : Nat → Res (EvError X) Bool) (q : Nat → Res (EvError X') Bool)
    (h : ∀ i, Follows K id (p i) (q i)) : (is : List Nat) → Follows K id (loopAll is p) (loopAll is q)
  | [] => .ok rfl
  | i :: is => by
    unfold loopAll
    refine .bind (h i) fun b => ?_
    dsimp only [id]
    split
    · exact follows_loopAll p q h is
    · exact .ok rfl

theorem follows_fromBits {n : Nat} (c : Cfg) (t : List ArrFlagDecl) (bits : List UInt8) :
    Follows K id (BFlags.fromBits c t n bits) (BFlags.fromBits c t n bits) := by
  unfold BFlags.fromBits BFlags.all
  refine .bind (follows_assert _) fun _ => ?_
  refine .bind (f := id) (.bind (follows_allLoop c t _) fun _ => .ok rfl) fun a => ?_
  dsimp only [id]
  refine .bind (follows_loopAll _ _ (fun i => ?_) _) fun good => ?_
  · exact .bind (follows_idx _ _) fun _ => .bind (follows_idx _ _) fun _ => .ok rfl
  · dsimp only [id]
    split
    · exact .bind (follows_toArr _ _) fun _ => .ok rfl
    · exact .ok rfl

/-- A step that can only fail with one kind of error. -/
theorem follows_mapErr {ε : Type} {F : ε → EvError X} {G : ε → EvError X'}
    (h : ∀ e, K (F e) = some (G e)) (x : Res ε α) : Follows K id (x.mapErr F) (x.mapErr G) := by
  cases x with
  | ok a => exact .ok rfl
  | err e => exact .err (h e)
  | panic => exact .panic

variable {keep : Bool} {g : X → Option X'}

theorem follows_requireLen (bs : List UInt8) (n : Nat) :
    Follows (errK keep g) id (requireLen bs n) (requireLen bs n) := by
  unfold requireLen; split <;> first | exact .ok rfl | exact .err rfl

theorem follows_requireLenAtLeast (bs : List UInt8) (n : Nat) :
    Follows (errK keep g) id (requireLenAtLeast bs n) (requireLenAtLeast bs n) := by
  unfold requireLenAtLeast; split <;> first | exact .ok rfl | exact .err rfl

theorem follows_linkType (b : UInt8) :
    Follows (errK keep g) id (LinkType.tryFrom b) (LinkType.tryFrom b) := by
  unfold LinkType.tryFrom; split <;> first | exact .ok rfl | exact .err rfl

theorem follows_enabled (b : UInt8) :
    Follows (errK keep g) id (tryIntoEncryptionEnabled b) (tryIntoEncryptionEnabled b) := by
  unfold tryIntoEncryptionEnabled; split <;> first | exact .ok rfl | exact .err rfl

theorem follows_encryption (b : UInt8) :
    Follows (errK keep g) id (Encryption.tryFrom b) (Encryption.tryFrom b) := by
  unfold Encryption.tryFrom; split <;> first | exact .ok rfl | exact .err rfl

theorem follows_role (b : UInt8) :
    Follows (errK keep g) id (ConnectionRole.tryFrom b) (ConnectionRole.tryFrom b) := by
  unfold ConnectionRole.tryFrom; split <;> first | exact .ok rfl | exact .err rfl

theorem follows_clock (b : UInt8) :
    Follows (errK keep g) id (CentralClockAccuracy.tryFrom b) (CentralClockAccuracy.tryFrom b) := by
  unfold CentralClockAccuracy.tryFrom; split <;> first | exact .ok rfl | exact .err rfl

theorem follows_phy (b : UInt8) : Follows (errK keep g) id (Phy.tryFrom b) (Phy.tryFrom b) := by
  unfold Phy.tryFrom; split <;> first | exact .ok rfl | exact .err rfl

theorem follows_advEvent (b : UInt8) :
    Follows (errK keep g) id (AdvertisementEvent.tryFrom b) (AdvertisementEvent.tryFrom b) := by
  unfold AdvertisementEvent.tryFrom; split <;> first | exact .ok rfl | exact .err rfl

theorem follows_address (b : UInt8) (a : BdAddr) :
    Follows (errK keep g) id ((toBdAddrType b a).mapErr .badLeAddressType)
      ((toBdAddrType b a).mapErr .badLeAddressType) :=
  follows_mapErr (K := errK keep g) (F := .badLeAddressType) (G := .badLeAddressType) (fun _ => rfl) _

theorem follows_interval (x : Res ConnectionIntervalError FixedConnectionInterval) :
    Follows (errK keep g) id (x.mapErr .badConnectionInterval) (x.mapErr .badConnectionInterval) :=
  follows_mapErr (K := errK keep g) (F := .badConnectionInterval) (G := .badConnectionInterval)
    (fun _ => rfl) _

theorem follows_commandFlags (c : Cfg) (bs : List UInt8) :
    Follows (errK keep g) id (tryCommandFlags c bs) (tryCommandFlags c bs) := by
  unfold tryCommandFlags
  refine .bind (follows_requireLen _ _) fun _ => .bind (follows_fromBits _ _ _) fun o => ?_
  cases o <;> first | exact .ok rfl | exact .err rfl

theorem follows_innerNext (d : List UInt8) (i : Nat) :
    Follows (errK keep g) id (innerNext d i) (innerNext d i) := by
  unfold innerNext
  split
  · exact .ok rfl
  · refine .bind (follows_idx _ _) fun dl => ?_
    dsimp only [id]
    split
    · exact .err rfl
    · exact .bind (follows_slice _ _ _) fun _ => .bind (follows_toArr _ _) fun _ =>
        .bind (follows_idx _ _) fun _ => .bind (follows_advEvent _) fun _ =>
        .bind (follows_idx _ _) fun _ => .bind (follows_address _ _) fun _ =>
        .bind (follows_slice _ _ _) fun _ => .bind (follows_idx _ _) fun _ => .ok rfl

theorem follows_checkLoop (d : List UInt8) (n : Nat) : ∀ i, d.length - i ≤ n →
    Follows (errK keep g) id (checkLoop d i) (checkLoop d i) := by
  induction n with
  | zero =>
    intro i hi
    rw [checkLoop_unfold, checkLoop_unfold]
    unfold innerNext
    rw [if_pos (by omega), if_pos (by omega)]
    exact .ok rfl
  | succ n ih =>
    intro i hi
    have h := follows_innerNext (keep := keep) (g := g) d i
    rw [checkLoop_unfold, checkLoop_unfold]
    cases hx : innerNext (VE := X) d i with
    | ok a =>
      rw [h.1 a hx]
      obtain ⟨o, j⟩ := a
      cases o with
      | none => exact .ok rfl
      | some a =>
        have := innerNext_advances hx
        exact ih j (by omega)
    | err e =>
      refine ⟨fun _ h' => by (cases h'), fun e1 e' h1 h2 => ?_, fun h' => by (cases h')⟩
      cases h1
      rw [h.2.1 e e' hx h2]
    | panic => rw [h.2.2 hx]; exact .panic

theorem follows_advertisingReport (bs : List UInt8) :
    Follows (errK keep g) id (toLeAdvertisingReport bs) (toLeAdvertisingReport bs) :=
  .bind (follows_sliceFrom _ _) fun d => .bind (follows_checkLoop d _ 0 (Nat.le_refl _)) fun _ =>
    .bind (follows_sliceFrom _ _) fun _ => .bind (follows_copyRange _ _ _ _) fun _ =>
    .bind (follows_toArr _ _) fun _ => .ok rfl

end

/-! ## The parsers -/

/-- What the two vendors do, step by step. -/
structure VFollows (V W : Vendor) (keep : Bool) (g : V.VErr → Option W.VErr) (f : V.VStatus → W.VStatus)
    (r : V.VRet → W.VRet) (k : V.VEvent → W.VEvent) : Prop where
  status_ok : ∀ b s, V.statusTryFrom b = .ok s → W.statusTryFrom b = .ok (f s)
  status_err : keep = true → ∀ b w, V.statusTryFrom b = .err w → W.statusTryFrom b = .err w
  status_panic : ∀ b, V.statusTryFrom b = .panic → W.statusTryFrom b = .panic
  ret : ∀ ps, Follows (errK keep g) r (V.retNew ps) (W.retNew ps)
  event : ∀ ps, Follows (errK keep g) k (V.eventNew ps) (W.eventNew ps)

section
variable {V W : Vendor} {keep : Bool} {g : V.VErr → Option W.VErr} {f : V.VStatus → W.VStatus}
  {r : V.VRet → W.VRet} {k : V.VEvent → W.VEvent} (H : VFollows V W keep g f r k) (c : Cfg)

theorem mapStatus_standard {S S' : Type} (f : S → S') :
    (standardStatuses (VS := S)).map (mapStatus f) = standardStatuses := rfl

include H in
theorem follows_tryFrom (b : UInt8) :
    (∀ s, Status.tryFrom c V.statusTryFrom b = .ok s →
      Status.tryFrom c W.statusTryFrom b = .ok (mapStatus f s)) ∧
    (keep = true → ∀ w, Status.tryFrom c V.statusTryFrom b = .err w →
      Status.tryFrom c W.statusTryFrom b = .err w) ∧
    (Status.tryFrom c V.statusTryFrom b = .panic → Status.tryFrom c W.statusTryFrom b = .panic) := by
  by_cases h : b.toNat < statusCount c
  · rw [Status.tryFrom_standard c _ b h, Status.tryFrom_standard c _ b h]
    refine ⟨fun s hs => ?_, fun _ w hw => by (cases hw), fun hp => by (cases hp)⟩
    cases hs
    congr 1
    simp only [← mapStatus_standard f, List.getElem_map]
  · rw [Status.tryFrom_vendor c _ b (by omega), Status.tryFrom_vendor c _ b (by omega)]
    cases hV : V.statusTryFrom b with
    | ok s =>
      rw [H.status_ok b s hV]
      exact ⟨fun s hs => by (cases hs; rfl), fun _ w hw => by (cases hw), fun hp => by (cases hp)⟩
    | err w =>
      refine ⟨fun s hs => by (cases hs), fun hk w' hw => ?_, fun hp => by (cases hp)⟩
      rw [H.status_err hk b w hV]; cases hw; rfl
    | panic =>
      rw [H.status_panic b hV]
      exact ⟨fun s hs => by (cases hs), fun _ w hw => by (cases hw), fun hp => rfl⟩

include H in
theorem follows_tryStatus (b : UInt8) :
    Follows (errK keep g) (mapStatus f) (tryStatus c V b) (tryStatus c W b) := by
  have h := follows_tryFrom H c b
  unfold tryStatus
  cases hx : Status.tryFrom c V.statusTryFrom b with
  | ok s => rw [h.1 s hx]; exact .ok rfl
  | err w =>
    cases hk : keep with
    | true => rw [h.2.1 hk w hx]; exact .err rfl
    | false => exact .free rfl
  | panic => rw [h.2.2 hx]; exact .panic

include H in
theorem follows_tryReason (b : UInt8) :
    Follows (errK keep g) (mapStatus f) (tryReason c V b) (tryReason c W b) := by
  have h := follows_tryFrom H c b
  unfold tryReason
  cases hx : Status.tryFrom c V.statusTryFrom b with
  | ok s => rw [h.1 s hx]; exact .ok rfl
  | err w =>
    cases hk : keep with
    | true => rw [h.2.1 hk w hx]; exact .err rfl
    | false => exact .free rfl
  | panic => rw [h.2.2 hx]; exact .panic

include H in
theorem follows_toStatus (bs : List UInt8) :
    Follows (errK keep g) (mapStatus f) (toStatus c V bs) (toStatus c W bs) :=
  .bind (follows_idx _ _) fun b => follows_tryStatus H c b

/-- One step of a parser, then the rest. -/
macro "follow_step " H:ident c:ident : tactic =>
  `(tactic| first
    | exact Follows.ok rfl
    | exact Follows.err rfl
    | exact Follows.panic
    | refine Follows.bind (follows_requireLen _ _) fun _ => ?_
    | refine Follows.bind (follows_requireLenAtLeast _ _) fun _ => ?_
    | refine Follows.bind (follows_idx _ _) fun _ => ?_
    | refine Follows.bind (follows_tryStatus $H $c _) fun _ => ?_
    | refine Follows.bind (follows_tryReason $H $c _) fun _ => ?_
    | refine Follows.bind (follows_toStatus $H $c _) fun _ => ?_
    | refine Follows.bind (follows_readU16From _ _) fun _ => ?_
    | refine Follows.bind (follows_readU64From _ _) fun _ => ?_
    | refine Follows.bind (follows_slice _ _ _) fun _ => ?_
    | refine Follows.bind (follows_sliceFrom _ _) fun _ => ?_
    | refine Follows.bind (follows_toArr _ _) fun _ => ?_
    | refine Follows.bind (follows_copyRange _ _ _ _) fun _ => ?_
    | refine Follows.bind (follows_linkType _) fun _ => ?_
    | refine Follows.bind (follows_enabled _) fun _ => ?_
    | refine Follows.bind (follows_encryption _) fun _ => ?_
    | refine Follows.bind (follows_role _) fun _ => ?_
    | refine Follows.bind (follows_clock _) fun _ => ?_
    | refine Follows.bind (follows_phy _) fun _ => ?_
    | refine Follows.bind (follows_fromBits $c _ _) fun _ => ?_
    | refine Follows.bind (follows_commandFlags $c _) fun _ => ?_
    | refine Follows.bind (follows_address _ _) fun _ => ?_
    | refine Follows.bind (follows_interval _) fun _ => ?_
    | (dsimp only [id]; split))

include H in
theorem follows_toTxPowerLevel (bs : List UInt8) :
    Follows (errK keep g) (fun p : TxPowerLevelRet V.VStatus => (⟨mapStatus f p.status, p.connHandle, p.txPowerLevelDbm⟩ : TxPowerLevelRet W.VStatus))
      (toTxPowerLevel c V bs) (toTxPowerLevel c W bs) := by
  unfold toTxPowerLevel
  repeat follow_step H c

include H in
theorem follows_toLocalVersionInfo (bs : List UInt8) :
    Follows (errK keep g) (fun p : LocalVersionInfo V.VStatus => (⟨mapStatus f p.status, p.hciVersion, p.hciRevision, p.lmpVersion, p.manufacturerName, p.lmpSubversion⟩ : LocalVersionInfo W.VStatus))
      (toLocalVersionInfo c V bs) (toLocalVersionInfo c W bs) := by
  unfold toLocalVersionInfo
  repeat follow_step H c

include H in
theorem follows_toSupportedCommands (bs : List UInt8) :
    Follows (errK keep g) (fun p : LocalSupportedCommands V.VStatus => (⟨mapStatus f p.status, p.supportedCommands⟩ : LocalSupportedCommands W.VStatus))
      (toSupportedCommands c V bs) (toSupportedCommands c W bs) := by
  unfold toSupportedCommands
  repeat follow_step H c

include H in
theorem follows_toSupportedFeatures (bs : List UInt8) :
    Follows (errK keep g) (fun p : LocalSupportedFeatures V.VStatus => (⟨mapStatus f p.status, p.supportedFeatures⟩ : LocalSupportedFeatures W.VStatus))
      (toSupportedFeatures c V bs) (toSupportedFeatures c W bs) := by
  unfold toSupportedFeatures
  repeat follow_step H c

include H in
theorem follows_toBdAddr (bs : List UInt8) :
    Follows (errK keep g) (fun p : ReadBdAddr V.VStatus => (⟨mapStatus f p.status, p.bdAddr⟩ : ReadBdAddr W.VStatus))
      (toBdAddr c V bs) (toBdAddr c W bs) := by
  unfold toBdAddr
  repeat follow_step H c

include H in
theorem follows_toReadRssi (bs : List UInt8) :
    Follows (errK keep g) (fun p : ReadRssi V.VStatus => (⟨mapStatus f p.status, p.connHandle, p.rssi⟩ : ReadRssi W.VStatus))
      (toReadRssi c V bs) (toReadRssi c W bs) := by
  unfold toReadRssi
  repeat follow_step H c

include H in
theorem follows_toLeReadBufferStatus (bs : List UInt8) :
    Follows (errK keep g) (fun p : LeReadBufferSize V.VStatus => (⟨mapStatus f p.status, p.dataPacketLength, p.dataPacketCount⟩ : LeReadBufferSize W.VStatus))
      (toLeReadBufferStatus c V bs) (toLeReadBufferStatus c W bs) := by
  unfold toLeReadBufferStatus
  repeat follow_step H c

include H in
theorem follows_toLeLocalSupportedFeatures (bs : List UInt8) :
    Follows (errK keep g) (fun p : LeSupportedFeatures V.VStatus => (⟨mapStatus f p.status, p.supportedFeatures⟩ : LeSupportedFeatures W.VStatus))
      (toLeLocalSupportedFeatures c V bs) (toLeLocalSupportedFeatures c W bs) := by
  unfold toLeLocalSupportedFeatures
  repeat follow_step H c

include H in
theorem follows_toLeAdvertisingChannelTxPower (bs : List UInt8) :
    Follows (errK keep g) (fun p : LeAdvertisingChannelTxPower V.VStatus => (⟨mapStatus f p.status, p.power⟩ : LeAdvertisingChannelTxPower W.VStatus))
      (toLeAdvertisingChannelTxPower c V bs) (toLeAdvertisingChannelTxPower c W bs) := by
  unfold toLeAdvertisingChannelTxPower
  repeat follow_step H c

include H in
theorem follows_toLeChannelMapParameters (bs : List UInt8) :
    Follows (errK keep g) (fun p : ChannelMapParameters V.VStatus => (⟨mapStatus f p.status, p.connHandle, p.channelMap⟩ : ChannelMapParameters W.VStatus))
      (toLeChannelMapParameters c V bs) (toLeChannelMapParameters c W bs) := by
  unfold toLeChannelMapParameters
  repeat follow_step H c

include H in
theorem follows_toLeEncryptedData (bs : List UInt8) :
    Follows (errK keep g) (fun p : EncryptedReturnParameters V.VStatus => (⟨mapStatus f p.status, p.encryptedData⟩ : EncryptedReturnParameters W.VStatus))
      (toLeEncryptedData c V bs) (toLeEncryptedData c W bs) := by
  unfold toLeEncryptedData
  repeat follow_step H c

include H in
theorem follows_toRandomNumber (bs : List UInt8) :
    Follows (errK keep g) (fun p : LeRandom V.VStatus => (⟨mapStatus f p.status, p.randomNumber⟩ : LeRandom W.VStatus))
      (toRandomNumber c V bs) (toRandomNumber c W bs) := by
  unfold toRandomNumber
  repeat follow_step H c

include H in
theorem follows_toLeLtkRequestReply (bs : List UInt8) :
    Follows (errK keep g) (fun p : LeLongTermRequestReply V.VStatus => (⟨mapStatus f p.status, p.connHandle⟩ : LeLongTermRequestReply W.VStatus))
      (toLeLtkRequestReply c V bs) (toLeLtkRequestReply c W bs) := by
  unfold toLeLtkRequestReply
  repeat follow_step H c

include H in
theorem follows_toLeReadStates (bs : List UInt8) :
    Follows (errK keep g) (fun p : LeReadSupportedStates V.VStatus => (⟨mapStatus f p.status, p.supportedStates⟩ : LeReadSupportedStates W.VStatus))
      (toLeReadStates c V bs) (toLeReadStates c W bs) := by
  unfold toLeReadStates
  repeat follow_step H c

include H in
theorem follows_toLeTestEnd (bs : List UInt8) :
    Follows (errK keep g) (fun p : LeTestEnd V.VStatus => (⟨mapStatus f p.status, p.numberOfPackets⟩ : LeTestEnd W.VStatus))
      (toLeTestEnd c V bs) (toLeTestEnd c W bs) := by
  unfold toLeTestEnd
  repeat follow_step H c

include H in
theorem follows_toConnectionComplete (bs : List UInt8) :
    Follows (errK keep g) (fun p : ConnectionComplete V.VStatus => (⟨mapStatus f p.status, p.connHandle, p.bdAddr, p.linkType, p.encryptionEnabled⟩ : ConnectionComplete W.VStatus))
      (toConnectionComplete c V bs) (toConnectionComplete c W bs) := by
  unfold toConnectionComplete
  repeat follow_step H c

include H in
theorem follows_toDisconnectionComplete (bs : List UInt8) :
    Follows (errK keep g) (fun p : DisconnectionComplete V.VStatus => (⟨mapStatus f p.status, p.connHandle, mapStatus f p.reason⟩ : DisconnectionComplete W.VStatus))
      (toDisconnectionComplete c V bs) (toDisconnectionComplete c W bs) := by
  unfold toDisconnectionComplete
  repeat follow_step H c

include H in
theorem follows_toEncryptionChange (bs : List UInt8) :
    Follows (errK keep g) (fun p : EncryptionChange V.VStatus => (⟨mapStatus f p.status, p.connHandle, p.encryption⟩ : EncryptionChange W.VStatus))
      (toEncryptionChange c V bs) (toEncryptionChange c W bs) := by
  unfold toEncryptionChange
  repeat follow_step H c

include H in
theorem follows_toRemoteVersionInfo (bs : List UInt8) :
    Follows (errK keep g) (fun p : RemoteVersionInformation V.VStatus => (⟨mapStatus f p.status, p.connHandle, p.version, p.mfgrName, p.subversion⟩ : RemoteVersionInformation W.VStatus))
      (toRemoteVersionInfo c V bs) (toRemoteVersionInfo c W bs) := by
  unfold toRemoteVersionInfo
  repeat follow_step H c

include H in
theorem follows_toCommandStatus (bs : List UInt8) :
    Follows (errK keep g) (fun p : CommandStatus V.VStatus => (⟨mapStatus f p.status, p.numHciCommandPackets, p.opcode⟩ : CommandStatus W.VStatus))
      (toCommandStatus c V bs) (toCommandStatus c W bs) := by
  unfold toCommandStatus
  repeat follow_step H c

theorem follows_toHardwareError (bs : List UInt8) :
    Follows (errK keep g) id (toHardwareError V bs) (toHardwareError W bs) := by
  unfold toHardwareError
  repeat follow_step H c

theorem follows_toNumberOfCompletedPackets (bs : List UInt8) :
    Follows (errK keep g) id (toNumberOfCompletedPackets V bs) (toNumberOfCompletedPackets W bs) := by
  unfold toNumberOfCompletedPackets
  repeat follow_step H c

theorem follows_toDataBufferOverflow (bs : List UInt8) :
    Follows (errK keep g) id (toDataBufferOverflow V bs) (toDataBufferOverflow W bs) := by
  unfold toDataBufferOverflow
  repeat follow_step H c

include H in
theorem follows_toEncryptionKeyRefreshComplete (bs : List UInt8) :
    Follows (errK keep g) (fun p : EncryptionKeyRefreshComplete V.VStatus => (⟨mapStatus f p.status, p.connHandle⟩ : EncryptionKeyRefreshComplete W.VStatus))
      (toEncryptionKeyRefreshComplete c V bs) (toEncryptionKeyRefreshComplete c W bs) := by
  unfold toEncryptionKeyRefreshComplete
  repeat follow_step H c

include H in
theorem follows_toLeConnectionComplete (bs : List UInt8) :
    Follows (errK keep g) (fun p : LeConnectionComplete V.VStatus => (⟨mapStatus f p.status, p.connHandle, p.role, p.peerBdAddr, p.connInterval, p.centralClockAccuracy⟩ : LeConnectionComplete W.VStatus))
      (toLeConnectionComplete c V bs) (toLeConnectionComplete c W bs) := by
  unfold toLeConnectionComplete
  repeat follow_step H c

include H in
theorem follows_toLeConnectionUpdateComplete (bs : List UInt8) :
    Follows (errK keep g) (fun p : LeConnectionUpdateComplete V.VStatus => (⟨mapStatus f p.status, p.connHandle, p.connInterval⟩ : LeConnectionUpdateComplete W.VStatus))
      (toLeConnectionUpdateComplete c V bs) (toLeConnectionUpdateComplete c W bs) := by
  unfold toLeConnectionUpdateComplete
  repeat follow_step H c

include H in
theorem follows_toLeReadRemoteUsedFeaturesComplete (bs : List UInt8) :
    Follows (errK keep g) (fun p : LeReadRemoteUsedFeaturesComplete V.VStatus => (⟨mapStatus f p.status, p.connHandle, p.features⟩ : LeReadRemoteUsedFeaturesComplete W.VStatus))
      (toLeReadRemoteUsedFeaturesComplete c V bs) (toLeReadRemoteUsedFeaturesComplete c W bs) := by
  unfold toLeReadRemoteUsedFeaturesComplete
  repeat follow_step H c

theorem follows_toLeLtkRequest (bs : List UInt8) :
    Follows (errK keep g) id (toLeLtkRequest V bs) (toLeLtkRequest W bs) := by
  unfold toLeLtkRequest
  repeat follow_step H c

theorem follows_toLeDataLengthChangeEvent (bs : List UInt8) :
    Follows (errK keep g) id (toLeDataLengthChangeEvent V bs) (toLeDataLengthChangeEvent W bs) := by
  unfold toLeDataLengthChangeEvent
  repeat follow_step H c

include H in
theorem follows_toLePhyUpdateComplete (bs : List UInt8) :
    Follows (errK keep g) (fun p : LePhyUpdateComplete V.VStatus => (⟨p.connHandle, mapStatus f p.status, p.txPhy, p.rxPhy⟩ : LePhyUpdateComplete W.VStatus))
      (toLePhyUpdateComplete c V bs) (toLePhyUpdateComplete c W bs) := by
  unfold toLePhyUpdateComplete
  repeat follow_step H c

theorem mapReturn_advertiseEnable (f : V.VStatus → W.VStatus) (r : V.VRet → W.VRet)
    (s : Status V.VStatus) : toLeSetAdvertiseEnable c W (mapStatus f s) =
      mapReturn f r (toLeSetAdvertiseEnable c V s) := by
  unfold toLeSetAdvertiseEnable; split <;> rfl

include H in
theorem follows_returnParams (o : Opcode) (bs : List UInt8) :
    Follows (errK keep g) (mapReturn f r) (returnParams c V o bs) (returnParams c W o bs) := by
  unfold returnParams
  repeat' refine Follows.ite ?_ ?_
  all_goals first
    | exact Follows.ok rfl
    | exact Follows.err rfl
    | exact .bind (follows_sliceFrom _ _) fun _ => .bind (follows_toStatus H c _) fun _ => .ok rfl
    | exact .bind (follows_sliceFrom _ _) fun _ => .bind (follows_toTxPowerLevel H c _) fun _ => .ok rfl
    | exact .bind (follows_sliceFrom _ _) fun _ => .bind (follows_toLocalVersionInfo H c _) fun _ => .ok rfl
    | exact .bind (follows_sliceFrom _ _) fun _ => .bind (follows_toSupportedCommands H c _) fun _ => .ok rfl
    | exact .bind (follows_sliceFrom _ _) fun _ => .bind (follows_toSupportedFeatures H c _) fun _ => .ok rfl
    | exact .bind (follows_sliceFrom _ _) fun _ => .bind (follows_toBdAddr H c _) fun _ => .ok rfl
    | exact .bind (follows_sliceFrom _ _) fun _ => .bind (follows_toReadRssi H c _) fun _ => .ok rfl
    | exact .bind (follows_sliceFrom _ _) fun _ => .bind (follows_toLeReadBufferStatus H c _) fun _ => .ok rfl
    | exact .bind (follows_sliceFrom _ _) fun _ => .bind (follows_toLeLocalSupportedFeatures H c _) fun _ => .ok rfl
    | exact .bind (follows_sliceFrom _ _) fun _ => .bind (follows_toLeAdvertisingChannelTxPower H c _) fun _ => .ok rfl
    | exact .bind (follows_sliceFrom _ _) fun _ => .bind (follows_toLeChannelMapParameters H c _) fun _ => .ok rfl
    | exact .bind (follows_sliceFrom _ _) fun _ => .bind (follows_toLeEncryptedData H c _) fun _ => .ok rfl
    | exact .bind (follows_sliceFrom _ _) fun _ => .bind (follows_toRandomNumber H c _) fun _ => .ok rfl
    | exact .bind (follows_sliceFrom _ _) fun _ => .bind (follows_toLeLtkRequestReply H c _) fun _ => .ok rfl
    | exact .bind (follows_sliceFrom _ _) fun _ => .bind (follows_toLeReadStates H c _) fun _ => .ok rfl
    | exact .bind (follows_sliceFrom _ _) fun _ => .bind (follows_toLeTestEnd H c _) fun _ => .ok rfl
    | exact .bind (follows_sliceFrom _ _) fun _ => .bind (follows_toStatus H c _) fun _ =>
        .bind (follows_idx _ _) fun _ => .ok rfl
    | exact .bind (follows_sliceFrom _ _) fun _ => .bind (follows_toStatus H c _) fun _ =>
        .ok (mapReturn_advertiseEnable c f r _)
    | exact .bind (H.ret _) fun _ => .ok rfl

include H in
theorem follows_commandComplete (bs : List UInt8) :
    Follows (errK keep g) (fun p : CommandComplete V.VStatus V.VRet =>
        (⟨p.numHciCommandPackets, mapReturn f r p.returnParams⟩ : CommandComplete W.VStatus W.VRet))
      (CommandComplete.new c V bs) (CommandComplete.new c W bs) :=
  .bind (follows_requireLenAtLeast _ _) fun _ => .bind (follows_readU16From _ _) fun _ =>
    .bind (follows_returnParams H c _ _) fun _ => .bind (follows_idx _ _) fun _ => .ok rfl

include H in
theorem follows_leMeta (bs : List UInt8) :
    Follows (errK keep g) (mapEvent f r k) (toLeMetaEvent c V bs) (toLeMetaEvent c W bs) := by
  unfold toLeMetaEvent
  refine .bind (follows_requireLenAtLeast _ _) fun _ => .bind (follows_idx _ _) fun b => ?_
  dsimp only [id]
  split
  all_goals first
    | exact Follows.err rfl
    | exact .bind (follows_toLeConnectionComplete H c _) fun _ => .ok rfl
    | exact .bind (follows_advertisingReport _) fun _ => .ok rfl
    | exact .bind (follows_toLeConnectionUpdateComplete H c _) fun _ => .ok rfl
    | exact .bind (follows_toLeReadRemoteUsedFeaturesComplete H c _) fun _ => .ok rfl
    | exact .bind (follows_toLeLtkRequest _) fun _ => .ok rfl
    | exact .bind (follows_toLeDataLengthChangeEvent _) fun _ => .ok rfl
    | exact .bind (follows_toLePhyUpdateComplete H c _) fun _ => .ok rfl

include H in
theorem follows_event (p : List UInt8) :
    Follows (errK keep g) (mapEvent f r k) (Event.new c V p) (Event.new c W p) := by
  unfold Event.new
  refine .bind (follows_requireLenAtLeast _ _) fun _ => ?_
  have hl : Follows (errK keep g) id (fullLength p) (fullLength p) :=
    .bind (follows_idx _ _) fun _ => .ok rfl
  refine .bind hl fun _ => .bind (follows_requireLen _ _) fun _ => .bind (follows_idx _ _) fun b =>
    .bind hl fun _ => .bind (follows_slice _ _ _) fun ps => ?_
  dsimp only [id]
  split
  all_goals first
    | exact Follows.err rfl
    | exact follows_leMeta H c _
    | exact .bind (H.event _) fun _ => .ok rfl
    | exact .bind (follows_toConnectionComplete H c _) fun _ => .ok rfl
    | exact .bind (follows_toDisconnectionComplete H c _) fun _ => .ok rfl
    | exact .bind (follows_toEncryptionChange H c _) fun _ => .ok rfl
    | exact .bind (follows_toRemoteVersionInfo H c _) fun _ => .ok rfl
    | exact .bind (follows_commandComplete H c _) fun _ => .ok rfl
    | exact .bind (follows_toCommandStatus H c _) fun _ => .ok rfl
    | exact .bind (follows_toHardwareError _) fun _ => .ok rfl
    | exact .bind (follows_toNumberOfCompletedPackets _) fun _ => .ok rfl
    | exact .bind (follows_toDataBufferOverflow _) fun _ => .ok rfl
    | exact .bind (follows_toEncryptionKeyRefreshComplete H c _) fun _ => .ok rfl

end

/-! ## Events without anything of a vendor -/

theorem status_of_ctorIdx (s : Status Empty) : standardStatuses[s.ctorIdx]? = some s := by
  cases s with
  | vendor v => cases v
  | _ => rfl

theorem mapStatus_ctorIdx {S S' : Type} (f : S → S') (s : Status S) :
    (mapStatus f s).ctorIdx = s.ctorIdx := by
  cases s <;> rfl

theorem mapStatus_inj {S : Type} {s t : Status Empty}
    (h : mapStatus (Empty.elim : Empty → S) s = mapStatus Empty.elim t) : s = t := by
  have h' := congrArg Status.ctorIdx h
  rw [mapStatus_ctorIdx, mapStatus_ctorIdx] at h'
  have h1 := status_of_ctorIdx s
  rw [h', status_of_ctorIdx t] at h1
  exact (Option.some.inj h1).symm

section
variable {c : Cfg} {V : Vendor}

theorem status_unplain {b : UInt8} {s : Status Empty}
    (h : StatusByte c V b (mapStatus Empty.elim s)) : StatusByte c noVendor b s := by
  unfold StatusByte at h ⊢
  split at h
  · rename_i hb
    rw [if_pos hb]
    rw [← mapStatus_standard (Empty.elim : Empty → V.VStatus), List.getElem?_map] at h
    cases hs : (standardStatuses (VS := Empty))[b.toNat]? with
    | none => rw [hs] at h; cases h
    | some t =>
      rw [hs] at h
      rw [← mapStatus_inj (Option.some.inj h)]
      exact hs
  · obtain ⟨v, -, hv⟩ := h
    cases s with
    | vendor e => cases e
    | _ => cases hv

theorem returns_unplain {o : UInt16} {ps : List UInt8} {r' : ReturnParameters V.VStatus V.VRet}
    (h : Returns c V o ps r') : ∀ r : ReturnParameters Empty Empty,
      mapReturn Empty.elim Empty.elim r = r' → Returns c noVendor o ps r := by
  intro r hr
  cases h with
  | spontaneous => cases r <;> first | exact .spontaneous | cases hr
  | @statusOnly _ mk st s' rest hm hs =>
    simp only [statusReplies, List.mem_cons, Prod.mk.injEq, List.not_mem_nil, or_false] at hm
    have key (mk' : Status Empty → ReturnParameters Empty Empty) (s : Status Empty)
        (hmem : (o, mk') ∈ statusReplies c) (hb : StatusByte c V st (mapStatus Empty.elim s)) :
        Returns c noVendor o (st :: rest) (mk' s) :=
      .statusOnly (V := noVendor) hmem (status_unplain hb)
    rcases hm with ⟨rfl, rfl⟩ | ⟨rfl, rfl⟩ | ⟨rfl, rfl⟩ | ⟨rfl, rfl⟩ | ⟨rfl, rfl⟩ | ⟨rfl, rfl⟩ | ⟨rfl, rfl⟩ | ⟨rfl, rfl⟩ | ⟨rfl, rfl⟩ |
      ⟨rfl, rfl⟩ | ⟨rfl, rfl⟩ | ⟨rfl, rfl⟩ | ⟨rfl, rfl⟩ | ⟨rfl, rfl⟩ | ⟨rfl, rfl⟩ | ⟨rfl, rfl⟩ | ⟨rfl, rfl⟩
    · cases r with
      | setEventMask s =>
        exact key .setEventMask s (by simp [statusReplies]) (by injection hr with hr; rw [hr]; exact hs)
      | _ => cases hr
    · cases r with
      | reset s =>
        exact key .reset s (by simp [statusReplies]) (by injection hr with hr; rw [hr]; exact hs)
      | _ => cases hr
    · cases r with
      | leSetEventMask s =>
        exact key .leSetEventMask s (by simp [statusReplies]) (by injection hr with hr; rw [hr]; exact hs)
      | _ => cases hr
    · cases r with
      | leSetRandomAddress s =>
        exact key .leSetRandomAddress s (by simp [statusReplies]) (by injection hr with hr; rw [hr]; exact hs)
      | _ => cases hr
    · cases r with
      | leSetAdvertisingParameters s =>
        exact key .leSetAdvertisingParameters s (by simp [statusReplies]) (by injection hr with hr; rw [hr]; exact hs)
      | _ => cases hr
    · cases r with
      | leSetAdvertisingData s =>
        exact key .leSetAdvertisingData s (by simp [statusReplies]) (by injection hr with hr; rw [hr]; exact hs)
      | _ => cases hr
    · cases r with
      | leSetScanResponseData s =>
        exact key .leSetScanResponseData s (by simp [statusReplies]) (by injection hr with hr; rw [hr]; exact hs)
      | _ => cases hr
    · cases hv : c.v50 <;> rw [hv] at hr
      · cases r with
        | leSetAdvertiseEnable s =>
          exact key .leSetAdvertiseEnable s (by simp [statusReplies, hv]) (by injection hr with hr; rw [hr]; exact hs)
        | _ => cases hr
      · cases r with
        | leSetAdvertisingEnable s =>
          exact key .leSetAdvertisingEnable s (by simp [statusReplies, hv]) (by injection hr with hr; rw [hr]; exact hs)
        | _ => cases hr
    · cases r with
      | leSetScanParameters s =>
        exact key .leSetScanParameters s (by simp [statusReplies]) (by injection hr with hr; rw [hr]; exact hs)
      | _ => cases hr
    · cases r with
      | leSetScanEnable s =>
        exact key .leSetScanEnable s (by simp [statusReplies]) (by injection hr with hr; rw [hr]; exact hs)
      | _ => cases hr
    · cases r with
      | leCreateConnectionCancel s =>
        exact key .leCreateConnectionCancel s (by simp [statusReplies]) (by injection hr with hr; rw [hr]; exact hs)
      | _ => cases hr
    · cases r with
      | leClearWhiteList s =>
        exact key .leClearWhiteList s (by simp [statusReplies]) (by injection hr with hr; rw [hr]; exact hs)
      | _ => cases hr
    · cases r with
      | leAddDeviceToWhiteList s =>
        exact key .leAddDeviceToWhiteList s (by simp [statusReplies]) (by injection hr with hr; rw [hr]; exact hs)
      | _ => cases hr
    · cases r with
      | leRemoveDeviceFromWhiteList s =>
        exact key .leRemoveDeviceFromWhiteList s (by simp [statusReplies]) (by injection hr with hr; rw [hr]; exact hs)
      | _ => cases hr
    · cases r with
      | leSetHostChannelClassification s =>
        exact key .leSetHostChannelClassification s (by simp [statusReplies]) (by injection hr with hr; rw [hr]; exact hs)
      | _ => cases hr
    · cases r with
      | leReceiverTest s =>
        exact key .leReceiverTest s (by simp [statusReplies]) (by injection hr with hr; rw [hr]; exact hs)
      | _ => cases hr
    · cases r with
      | leTransmitterTest s =>
        exact key .leTransmitterTest s (by simp [statusReplies]) (by injection hr with hr; rw [hr]; exact hs)
      | _ => cases hr
  | readTxPowerLevel hs =>
    cases r with
    | readTxPowerLevel p =>
      cases p
      cases hr
      exact .readTxPowerLevel (status_unplain hs)
    | _ => cases hr
  | readLocalVersionInformation hs =>
    cases r with
    | readLocalVersionInformation p =>
      cases p
      cases hr
      exact .readLocalVersionInformation (status_unplain hs)
    | _ => cases hr
  | readLocalSupportedCommands hs hd =>
    cases r with
    | readLocalSupportedCommands p =>
      cases p
      cases hr
      exact .readLocalSupportedCommands (status_unplain hs) hd
    | _ => cases hr
  | readLocalSupportedFeatures hs hd =>
    cases r with
    | readLocalSupportedFeatures p =>
      cases p
      cases hr
      exact .readLocalSupportedFeatures (status_unplain hs) hd
    | _ => cases hr
  | readBdAddr hs =>
    cases r with
    | readBdAddr p =>
      cases p
      cases hr
      exact .readBdAddr (status_unplain hs)
    | _ => cases hr
  | readRssi hs =>
    cases r with
    | readRssi p =>
      cases p
      cases hr
      exact .readRssi (status_unplain hs)
    | _ => cases hr
  | leReadBufferSize hs =>
    cases r with
    | leReadBufferSize p =>
      cases p
      cases hr
      exact .leReadBufferSize (status_unplain hs)
    | _ => cases hr
  | leReadLocalSupportedFeatures hs hd =>
    cases r with
    | leReadLocalSupportedFeatures p =>
      cases p
      cases hr
      exact .leReadLocalSupportedFeatures (status_unplain hs) hd
    | _ => cases hr
  | leReadAdvertisingChannelTxPower hs =>
    cases r with
    | leReadAdvertisingChannelTxPower p =>
      cases p
      cases hr
      exact .leReadAdvertisingChannelTxPower (status_unplain hs)
    | _ => cases hr
  | leReadWhiteListSize hs =>
    cases r with
    | leReadWhiteListSize s size =>
      injection hr with h1 h2
      subst h1 h2
      exact .leReadWhiteListSize (status_unplain hs)
    | _ => cases hr
  | leReadChannelMap hs hd =>
    cases r with
    | leReadChannelMap p =>
      cases p
      cases hr
      exact .leReadChannelMap (status_unplain hs) hd
    | _ => cases hr
  | leEncrypt hs =>
    cases r with
    | leEncrypt p =>
      cases p
      cases hr
      exact .leEncrypt (status_unplain hs)
    | _ => cases hr
  | leRand hs =>
    cases r with
    | leRand p =>
      cases p
      cases hr
      exact .leRand (status_unplain hs)
    | _ => cases hr
  | leLongTermKeyRequestReply hs =>
    cases r with
    | leLongTermKeyRequestReply p =>
      cases p
      cases hr
      exact .leLongTermKeyRequestReply (status_unplain hs)
    | _ => cases hr
  | leLongTermKeyRequestNegativeReply hs =>
    cases r with
    | leLongTermKeyRequestNegativeReply p =>
      cases p
      cases hr
      exact .leLongTermKeyRequestNegativeReply (status_unplain hs)
    | _ => cases hr
  | leReadSupportedStates hs hd =>
    cases r with
    | leReadSupportedStates p =>
      cases p
      cases hr
      exact .leReadSupportedStates (status_unplain hs) hd
    | _ => cases hr
  | leTestEnd hs =>
    cases r with
    | leTestEnd p =>
      cases p
      cases hr
      exact .leTestEnd (status_unplain hs)
    | _ => cases hr

theorem says_unplain {code : UInt8} {ps : List UInt8} {e : V.Ev} (h : Says c V code ps e) :
    ∀ x : noVendor.Ev, plainEvent V x = e → Says c noVendor code ps x := by
  intro x hx
  cases h with
  | commandComplete h =>
    cases x with
    | commandComplete p =>
      cases p
      cases hx
      exact .commandComplete (returns_unplain h _ rfl)
    | _ => cases hx
  | commandCompleteVendor =>
    cases x with
    | commandComplete p =>
      obtain ⟨n, r⟩ := p
      cases r with
      | vendor v => cases v
      | _ => cases hx
    | _ => cases hx
  | vendor =>
    cases x with
    | vendor v => cases v
    | _ => cases hx
  | connectionComplete h0 =>
    cases x with
    | connectionComplete p =>
      cases p
      cases hx
      exact .connectionComplete (status_unplain h0)
    | _ => cases hx
  | disconnectionComplete h0 h1 =>
    cases x with
    | disconnectionComplete p =>
      cases p
      cases hx
      exact .disconnectionComplete (status_unplain h0) (status_unplain h1)
    | _ => cases hx
  | encryptionChange h0 =>
    cases x with
    | encryptionChange p =>
      cases p
      cases hx
      exact .encryptionChange (status_unplain h0)
    | _ => cases hx
  | readRemoteVersionInformationComplete h0 =>
    cases x with
    | readRemoteVersionInformationComplete p =>
      cases p
      cases hx
      exact .readRemoteVersionInformationComplete (status_unplain h0)
    | _ => cases hx
  | commandStatus h0 =>
    cases x with
    | commandStatus p =>
      cases p
      cases hx
      exact .commandStatus (status_unplain h0)
    | _ => cases hx
  | hardwareError  =>
    cases x with
    | hardwareError p =>
      cases p
      cases hx
      exact .hardwareError 
    | _ => cases hx
  | numberOfCompletedPackets d0 =>
    cases x with
    | numberOfCompletedPackets p =>
      cases p
      cases hx
      exact .numberOfCompletedPackets d0
    | _ => cases hx
  | dataBufferOverflow  =>
    cases x with
    | dataBufferOverflow p =>
      cases p
      cases hx
      exact .dataBufferOverflow 
    | _ => cases hx
  | encryptionKeyRefreshComplete h0 =>
    cases x with
    | encryptionKeyRefreshComplete p =>
      cases p
      cases hx
      exact .encryptionKeyRefreshComplete (status_unplain h0)
    | _ => cases hx
  | leConnectionComplete h0 d0 =>
    cases x with
    | leConnectionComplete p =>
      cases p
      cases hx
      exact .leConnectionComplete (status_unplain h0) d0
    | _ => cases hx
  | leAdvertisingReport d0 d1 =>
    cases x with
    | leAdvertisingReport p =>
      cases p
      cases hx
      exact .leAdvertisingReport d0 d1
    | _ => cases hx
  | leConnectionUpdateComplete h0 d0 =>
    cases x with
    | leConnectionUpdateComplete p =>
      cases p
      cases hx
      exact .leConnectionUpdateComplete (status_unplain h0) d0
    | _ => cases hx
  | leReadRemoteUsedFeaturesComplete h0 d0 =>
    cases x with
    | leReadRemoteUsedFeaturesComplete p =>
      cases p
      cases hx
      exact .leReadRemoteUsedFeaturesComplete (status_unplain h0) d0
    | _ => cases hx
  | leLongTermKeyRequest  =>
    cases x with
    | leLongTermKeyRequest p =>
      cases p
      cases hx
      exact .leLongTermKeyRequest 
    | _ => cases hx
  | leDataLengthChangeEvent  =>
    cases x with
    | leDataLengthChangeEvent p =>
      cases p
      cases hx
      exact .leDataLengthChangeEvent 
    | _ => cases hx
  | lePhyUpdateComplete h0 =>
    cases x with
    | lePhyUpdateComplete p =>
      cases p
      cases hx
      exact .lePhyUpdateComplete (status_unplain h0)
    | _ => cases hx

end

end Bt
