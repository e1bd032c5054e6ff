import Verif.Spec.Consulted
import Verif.Lemmas.Status
import Verif.Lemmas.Events
import Verif.Lemmas.Streams

/-! # Decoding with other vendor functions, step by step -/

namespace Bt

open Spec

theorem Res.bind_congr_ok {ε α β : Type} {x : Res ε α} {k k' : α → Res ε β} (h : ∀ a, x = .ok a → k a = k' a) :
    x >>= k = x >>= k' := by
  cases x with
  | ok a => exact h a rfl
  | err e => rfl
  | panic => rfl

section
variable {c : Cfg} {V : Vendor} {fs : UInt8 → Res UInt8 V.VStatus}
  {fe : List UInt8 → Res (EvError V.VErr) V.VEvent} {fr : List UInt8 → Res (EvError V.VErr) V.VRet}

/-- The status functions agree on byte `i`. -/
def AtPlace (c : Cfg) (V : Vendor) (fs : UInt8 → Res UInt8 V.VStatus) (bs : List UInt8) (i : Nat) : Prop :=
  ∀ b, idx (ε := EvError V.VErr) bs i = .ok b → statusCount c ≤ b.toNat → fs b = V.statusTryFrom b

theorem tryFrom_reprogrammed {b : UInt8} (h : statusCount c ≤ b.toNat → fs b = V.statusTryFrom b) :
    Status.tryFrom c fs b = Status.tryFrom c V.statusTryFrom b := by
  by_cases hb : b.toNat < statusCount c
  · rw [Status.tryFrom_standard c _ b hb, Status.tryFrom_standard c _ b hb]
  · rw [Status.tryFrom_vendor c _ b (by omega), Status.tryFrom_vendor c _ b (by omega), h (by omega)]

theorem tryStatus_reprogrammed {b : UInt8} (h : statusCount c ≤ b.toNat → fs b = V.statusTryFrom b) :
    tryStatus c (reprogrammed V fs fe fr) b = tryStatus c V b := by
  show (Status.tryFrom c fs b).mapErr _ = (Status.tryFrom c V.statusTryFrom b).mapErr _
  rw [tryFrom_reprogrammed h]

theorem tryReason_reprogrammed {b : UInt8} (h : statusCount c ≤ b.toNat → fs b = V.statusTryFrom b) :
    tryReason c (reprogrammed V fs fe fr) b = tryReason c V b := by
  show (Status.tryFrom c fs b).mapErr _ = (Status.tryFrom c V.statusTryFrom b).mapErr _
  rw [tryFrom_reprogrammed h]

theorem toStatus_reprogrammed {bs : List UInt8} (h : AtPlace c V fs bs 0) :
    toStatus c (reprogrammed V fs fe fr) bs = toStatus c V bs :=
  Res.bind_congr_ok fun b hb => tryStatus_reprogrammed (h b hb)

theorem AtPlace.drop {bs ds : List UInt8} {n i : Nat} (h : AtPlace c V fs bs (n + i))
    (hs : sliceFrom (ε := EvError V.VErr) bs n = .ok ds) : AtPlace c V fs ds i := by
  unfold sliceFrom at hs
  split at hs
  · cases hs
    intro b hb
    refine h b ?_
    unfold idx at hb ⊢
    rwa [List.getElem?_drop] at hb
  · cases hs

/-- One step of a parser, then the rest. -/
macro "consulted_step " H:ident : tactic =>
  `(tactic| first
    | rfl
    | rw [tryStatus_reprogrammed ($H _ (by assumption))]
    | rw [tryReason_reprogrammed ($H _ (by assumption))]
    | rw [toStatus_reprogrammed $H]
    | refine Res.bind_congr_ok fun _ _ => ?_)

theorem toConnectionComplete_reprogrammed {bs : List UInt8} (h : AtPlace c V fs bs 0) :
    toConnectionComplete c (reprogrammed V fs fe fr) bs = toConnectionComplete c V bs := by
  unfold toConnectionComplete
  repeat consulted_step h

theorem toDisconnectionComplete_reprogrammed {bs : List UInt8} (h : AtPlace c V fs bs 0) (h3 : AtPlace c V fs bs 3) :
    toDisconnectionComplete c (reprogrammed V fs fe fr) bs = toDisconnectionComplete c V bs := by
  unfold toDisconnectionComplete
  repeat (first | consulted_step h | rw [tryReason_reprogrammed (h3 _ (by assumption))])

theorem toEncryptionChange_reprogrammed {bs : List UInt8} (h : AtPlace c V fs bs 0) :
    toEncryptionChange c (reprogrammed V fs fe fr) bs = toEncryptionChange c V bs := by
  unfold toEncryptionChange
  repeat consulted_step h

theorem toRemoteVersionInfo_reprogrammed {bs : List UInt8} (h : AtPlace c V fs bs 0) :
    toRemoteVersionInfo c (reprogrammed V fs fe fr) bs = toRemoteVersionInfo c V bs := by
  unfold toRemoteVersionInfo
  repeat consulted_step h

theorem toCommandStatus_reprogrammed {bs : List UInt8} (h : AtPlace c V fs bs 0) :
    toCommandStatus c (reprogrammed V fs fe fr) bs = toCommandStatus c V bs := by
  unfold toCommandStatus
  repeat consulted_step h

theorem toEncryptionKeyRefreshComplete_reprogrammed {bs : List UInt8} (h : AtPlace c V fs bs 0) :
    toEncryptionKeyRefreshComplete c (reprogrammed V fs fe fr) bs = toEncryptionKeyRefreshComplete c V bs := by
  unfold toEncryptionKeyRefreshComplete
  repeat consulted_step h

theorem toLeConnectionComplete_reprogrammed {bs : List UInt8} (h : AtPlace c V fs bs 1) :
    toLeConnectionComplete c (reprogrammed V fs fe fr) bs = toLeConnectionComplete c V bs := by
  unfold toLeConnectionComplete
  repeat consulted_step h

theorem toLeConnectionUpdateComplete_reprogrammed {bs : List UInt8} (h : AtPlace c V fs bs 1) :
    toLeConnectionUpdateComplete c (reprogrammed V fs fe fr) bs = toLeConnectionUpdateComplete c V bs := by
  unfold toLeConnectionUpdateComplete
  repeat consulted_step h

theorem toLeReadRemoteUsedFeaturesComplete_reprogrammed {bs : List UInt8} (h : AtPlace c V fs bs 1) :
    toLeReadRemoteUsedFeaturesComplete c (reprogrammed V fs fe fr) bs = toLeReadRemoteUsedFeaturesComplete c V bs := by
  unfold toLeReadRemoteUsedFeaturesComplete
  repeat consulted_step h

theorem toLePhyUpdateComplete_reprogrammed {bs : List UInt8} (h : AtPlace c V fs bs 1) :
    toLePhyUpdateComplete c (reprogrammed V fs fe fr) bs = toLePhyUpdateComplete c V bs := by
  unfold toLePhyUpdateComplete
  repeat consulted_step h

theorem toTxPowerLevel_reprogrammed {bs : List UInt8} (h : AtPlace c V fs bs 0) :
    toTxPowerLevel c (reprogrammed V fs fe fr) bs = toTxPowerLevel c V bs := by
  unfold toTxPowerLevel
  repeat consulted_step h

theorem toLocalVersionInfo_reprogrammed {bs : List UInt8} (h : AtPlace c V fs bs 0) :
    toLocalVersionInfo c (reprogrammed V fs fe fr) bs = toLocalVersionInfo c V bs := by
  unfold toLocalVersionInfo
  repeat consulted_step h

theorem toSupportedCommands_reprogrammed {bs : List UInt8} (h : AtPlace c V fs bs 0) :
    toSupportedCommands c (reprogrammed V fs fe fr) bs = toSupportedCommands c V bs := by
  unfold toSupportedCommands
  repeat consulted_step h

theorem toSupportedFeatures_reprogrammed {bs : List UInt8} (h : AtPlace c V fs bs 0) :
    toSupportedFeatures c (reprogrammed V fs fe fr) bs = toSupportedFeatures c V bs := by
  unfold toSupportedFeatures
  repeat consulted_step h

theorem toBdAddr_reprogrammed {bs : List UInt8} (h : AtPlace c V fs bs 0) :
    toBdAddr c (reprogrammed V fs fe fr) bs = toBdAddr c V bs := by
  unfold toBdAddr
  repeat consulted_step h

theorem toReadRssi_reprogrammed {bs : List UInt8} (h : AtPlace c V fs bs 0) :
    toReadRssi c (reprogrammed V fs fe fr) bs = toReadRssi c V bs := by
  unfold toReadRssi
  repeat consulted_step h

theorem toLeReadBufferStatus_reprogrammed {bs : List UInt8} (h : AtPlace c V fs bs 0) :
    toLeReadBufferStatus c (reprogrammed V fs fe fr) bs = toLeReadBufferStatus c V bs := by
  unfold toLeReadBufferStatus
  repeat consulted_step h

theorem toLeLocalSupportedFeatures_reprogrammed {bs : List UInt8} (h : AtPlace c V fs bs 0) :
    toLeLocalSupportedFeatures c (reprogrammed V fs fe fr) bs = toLeLocalSupportedFeatures c V bs := by
  unfold toLeLocalSupportedFeatures
  repeat consulted_step h

theorem toLeAdvertisingChannelTxPower_reprogrammed {bs : List UInt8} (h : AtPlace c V fs bs 0) :
    toLeAdvertisingChannelTxPower c (reprogrammed V fs fe fr) bs = toLeAdvertisingChannelTxPower c V bs := by
  unfold toLeAdvertisingChannelTxPower
  repeat consulted_step h

theorem toLeChannelMapParameters_reprogrammed {bs : List UInt8} (h : AtPlace c V fs bs (0 + 0)) :
    toLeChannelMapParameters c (reprogrammed V fs fe fr) bs = toLeChannelMapParameters c V bs := by
  unfold toLeChannelMapParameters
  repeat (first | consulted_step h | rw [toStatus_reprogrammed (h.drop (by assumption))])

theorem toLeEncryptedData_reprogrammed {bs : List UInt8} (h : AtPlace c V fs bs 0) :
    toLeEncryptedData c (reprogrammed V fs fe fr) bs = toLeEncryptedData c V bs := by
  unfold toLeEncryptedData
  repeat consulted_step h

theorem toRandomNumber_reprogrammed {bs : List UInt8} (h : AtPlace c V fs bs 0) :
    toRandomNumber c (reprogrammed V fs fe fr) bs = toRandomNumber c V bs := by
  unfold toRandomNumber
  repeat consulted_step h

theorem toLeLtkRequestReply_reprogrammed {bs : List UInt8} (h : AtPlace c V fs bs 0) :
    toLeLtkRequestReply c (reprogrammed V fs fe fr) bs = toLeLtkRequestReply c V bs := by
  unfold toLeLtkRequestReply
  repeat consulted_step h

theorem toLeReadStates_reprogrammed {bs : List UInt8} (h : AtPlace c V fs bs 0) :
    toLeReadStates c (reprogrammed V fs fe fr) bs = toLeReadStates c V bs := by
  unfold toLeReadStates
  repeat consulted_step h

theorem toLeTestEnd_reprogrammed {bs : List UInt8} (h : AtPlace c V fs bs 0) :
    toLeTestEnd c (reprogrammed V fs fe fr) bs = toLeTestEnd c V bs := by
  unfold toLeTestEnd
  repeat consulted_step h

theorem opcode_group {bs : List UInt8} {o : UInt16} (h : readU16From (ε := EvError V.VErr) bs 1 = .ok o) :
    ∃ n lo hi ps, bs = n :: lo :: hi :: ps ∧ (Opcode.mk o).ogf.toNat = hi.toNat / 4 := by
  match bs with
  | [] | [_] | [_, _] => cases h
  | n :: lo :: hi :: ps =>
    refine ⟨n, lo, hi, ps, rfl, ?_⟩
    have hv : o = UInt16.ofNat (leNat [lo, hi]) := by cases h; rfl
    subst hv
    have := lo.toNat_lt
    have := hi.toNat_lt
    unfold Opcode.ogf
    simp only [leNat, UInt16.toNat_shiftRight, UInt16.toNat_ofNat', Nat.shiftRight_eq_div_pow]
    simp
    omega

theorem returnParams_reprogrammed {bs : List UInt8} (h : AtPlace c V fs bs (3 + 0)) (o : Opcode)
    (hr : o.ogf = 0x3F → fr bs = V.retNew bs) :
    returnParams c (reprogrammed V fs fe fr) o bs = returnParams c V o bs := by
  unfold returnParams
  repeat' refine ite_congr rfl (fun _ => ?_) fun _ => ?_
  all_goals first
    | rfl
    | (refine Res.bind_congr_ok fun _ hs => ?_; rw [toTxPowerLevel_reprogrammed (h.drop hs)])
    | (refine Res.bind_congr_ok fun _ hs => ?_; rw [toLocalVersionInfo_reprogrammed (h.drop hs)])
    | (refine Res.bind_congr_ok fun _ hs => ?_; rw [toSupportedCommands_reprogrammed (h.drop hs)])
    | (refine Res.bind_congr_ok fun _ hs => ?_; rw [toSupportedFeatures_reprogrammed (h.drop hs)])
    | (refine Res.bind_congr_ok fun _ hs => ?_; rw [toBdAddr_reprogrammed (h.drop hs)])
    | (refine Res.bind_congr_ok fun _ hs => ?_; rw [toReadRssi_reprogrammed (h.drop hs)])
    | (refine Res.bind_congr_ok fun _ hs => ?_; rw [toLeReadBufferStatus_reprogrammed (h.drop hs)])
    | (refine Res.bind_congr_ok fun _ hs => ?_; rw [toLeLocalSupportedFeatures_reprogrammed (h.drop hs)])
    | (refine Res.bind_congr_ok fun _ hs => ?_; rw [toLeAdvertisingChannelTxPower_reprogrammed (h.drop hs)])
    | (refine Res.bind_congr_ok fun _ hs => ?_; rw [toLeChannelMapParameters_reprogrammed (h.drop hs)])
    | (refine Res.bind_congr_ok fun _ hs => ?_; rw [toLeEncryptedData_reprogrammed (h.drop hs)])
    | (refine Res.bind_congr_ok fun _ hs => ?_; rw [toRandomNumber_reprogrammed (h.drop hs)])
    | (refine Res.bind_congr_ok fun _ hs => ?_; rw [toLeLtkRequestReply_reprogrammed (h.drop hs)])
    | (refine Res.bind_congr_ok fun _ hs => ?_; rw [toLeReadStates_reprogrammed (h.drop hs)])
    | (refine Res.bind_congr_ok fun _ hs => ?_; rw [toLeTestEnd_reprogrammed (h.drop hs)])
    | (refine Res.bind_congr_ok fun _ hs => ?_; rw [toStatus_reprogrammed (h.drop hs)] <;> rfl)
    | (show fr bs >>= _ = _; rw [hr (by simp_all)])

theorem commandComplete_reprogrammed {bs : List UInt8} (h : AtPlace c V fs bs (3 + 0))
    (hr : ∀ n lo hi ps, bs = n :: lo :: hi :: ps → hi.toNat / 4 = 0x3F → fr bs = V.retNew bs) :
    CommandComplete.new c (reprogrammed V fs fe fr) bs = CommandComplete.new c V bs := by
  unfold CommandComplete.new
  refine Res.bind_congr_ok fun _ _ => Res.bind_congr_ok fun o ho => ?_
  rw [returnParams_reprogrammed h]
  intro hg
  obtain ⟨n, lo, hi, ps, rfl, he⟩ := opcode_group ho
  exact hr n lo hi ps rfl (by rw [← he, hg]; rfl)

theorem leMeta_reprogrammed {bs : List UInt8}
    (h : ∀ sub, bs.head? = some sub → sub ∈ ([0x01, 0x03, 0x04, 0x0C] : List UInt8) → AtPlace c V fs bs 1) :
    toLeMetaEvent c (reprogrammed V fs fe fr) bs = toLeMetaEvent c V bs := by
  unfold toLeMetaEvent
  refine Res.bind_congr_ok fun _ _ => Res.bind_congr_ok fun sub hsub => ?_
  have hs : bs.head? = some sub := by
    cases bs with
    | nil => cases hsub
    | cons b t => cases hsub; rfl
  replace h := h sub hs
  split
  all_goals first
    | rfl
    | rw [toLeConnectionComplete_reprogrammed (h (by decide))]
    | rw [toLeConnectionUpdateComplete_reprogrammed (h (by decide))]
    | rw [toLeReadRemoteUsedFeaturesComplete_reprogrammed (h (by decide))]
    | rw [toLePhyUpdateComplete_reprogrammed (h (by decide))]

theorem dispatch_reprogrammed {code : UInt8} {ps : List UInt8}
    (h : ∀ i ∈ statusPlaces code ps, AtPlace c V fs ps i) (he : code = 0xFF → fe ps = V.eventNew ps)
    (hr : code = 0x0E → ∀ n lo hi qs, ps = n :: lo :: hi :: qs → hi.toNat / 4 = 0x3F → fr ps = V.retNew ps) :
    dispatch c (reprogrammed V fs fe fr) code ps = dispatch c V code ps := by
  unfold dispatch
  split
  all_goals first
    | rfl
    | rw [toConnectionComplete_reprogrammed (h 0 (by simp [statusPlaces]))]
    | rw [toDisconnectionComplete_reprogrammed (h 0 (by simp [statusPlaces])) (h 3 (by simp [statusPlaces]))]
    | rw [toEncryptionChange_reprogrammed (h 0 (by simp [statusPlaces]))]
    | rw [toRemoteVersionInfo_reprogrammed (h 0 (by simp [statusPlaces]))]
    | rw [toCommandStatus_reprogrammed (h 0 (by simp [statusPlaces]))]
    | rw [toEncryptionKeyRefreshComplete_reprogrammed (h 0 (by simp [statusPlaces]))]
    | rw [commandComplete_reprogrammed (h 3 (by simp [statusPlaces])) (hr rfl)]
    | exact leMeta_reprogrammed fun sub hs hm => h 1 (by
        cases ps with
        | nil => cases hs
        | cons b t => cases hs; unfold statusPlaces; simp only [if_pos hm]; simp)
    | (show fe ps >>= _ = _; rw [he rfl])

end

end Bt
