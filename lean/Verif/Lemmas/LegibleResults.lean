import Verif.Lemmas.LegibleEvents

/-! # Helper lemmas: the texts of everything that `read` returns can be read off -/

namespace Bt

open Spec

/-- The text of a command bit field: its first 39 octets. -/
def commandFlagsText (f : CommandFlags) : Text :=
  fmtSlice (fmtDec ·.toNat) ((f.arr.val.take 16).drop 0) ++ ['\n'] ++
    (fmtSlice (fmtDec ·.toNat) ((f.arr.val.take 32).drop 16) ++ ['\n']) ++
    (fmtSlice (fmtDec ·.toNat) ((f.arr.val.take 39).drop 32) ++ ['\n'])

theorem commandFlags_text {ε : Type} (f : CommandFlags) : CommandFlags.debug (ε := ε) f = .ok (commandFlagsText f) := by
  have h : f.arr.val.length = 64 := f.arr.len
  unfold CommandFlags.debug slice
  rw [if_pos (by omega), if_pos (by omega), if_pos (by omega)]
  rfl

theorem take39_split (l : List UInt8) : l.take 39 =
    (l.take 16).drop 0 ++ ((l.take 32).drop 16 ++ (l.take 39).drop 32) := by
  have e : l.take (16 + (16 + 7)) = l.take 16 ++ ((l.drop 16).take 16 ++ (l.drop (16 + 16)).take 7) := by
    rw [List.take_add, List.take_add, List.drop_drop]
  rw [List.drop_take, List.drop_take, List.drop_take]
  exact e

theorem commandFlags_sync (f g : CommandFlags) :
    Sync (commandFlagsText f) (commandFlagsText g) (f.arr.val.take 39 = g.arr.val.take 39) := by
  refine Sync.of_closed fun r s h => ?_
  unfold commandFlagsText at h
  simp only [List.append_assoc] at h
  obtain ⟨h1, h⟩ := fmtBytes_inj h
  obtain ⟨h2, h⟩ := fmtBytes_inj (List.append_cancel_left h)
  obtain ⟨h3, h⟩ := fmtBytes_inj (List.append_cancel_left h)
  exact ⟨by rw [take39_split, take39_split g.arr.val, h1, h2, h3], List.append_cancel_left h⟩

/-- What is shown of a command bit field. -/
theorem commandFlagsText_congr {f g : CommandFlags} (h : f.arr.val.take 39 = g.arr.val.take 39) :
    commandFlagsText f = commandFlagsText g := by
  have t (k : Nat) (hk : k ≤ 39) (l : List UInt8) : l.take k = (l.take 39).take k := by
    rw [List.take_take, Nat.min_eq_left hk]
  unfold commandFlagsText
  rw [t 16 (by decide), t 32 (by decide), t 16 (by decide) g.arr.val, t 32 (by decide) g.arr.val, h]

/-! ## Replies -/

/-- Replies that are equal as far as they are shown. -/
def SameReplyShown {VS VR : Type} (r r' : ReturnParameters VS VR) : Prop :=
  r = r' ∨ ∃ s f g, r = .readLocalSupportedCommands ⟨s, f⟩ ∧ r' = .readLocalSupportedCommands ⟨s, g⟩ ∧
    f.arr.val.take 39 = g.arr.val.take 39

def replyNames : List String :=
  ["Spontaneous", "SetEventMask", "Reset", "ReadTxPowerLevel", "ReadLocalVersionInformation",
   "ReadLocalSupportedCommands", "ReadLocalSupportedFeatures", "ReadBdAddr", "ReadRssi", "LeSetEventMask",
   "LeReadBufferSize", "LeReadLocalSupportedFeatures", "LeSetRandomAddress", "LeSetAdvertisingParameters",
   "LeReadAdvertisingChannelTxPower", "LeSetAdvertisingData", "LeSetScanResponseData", "LeSetAdvertiseEnable",
   "LeSetAdvertisingEnable", "LeSetScanParameters", "LeSetScanEnable", "LeCreateConnectionCancel",
   "LeReadWhiteListSize", "LeClearWhiteList", "LeAddDeviceToWhiteList", "LeRemoveDeviceFromWhiteList",
   "LeSetHostChannelClassification", "LeReadChannelMap", "LeEncrypt", "LeRand", "LeLongTermKeyRequestReply",
   "LeLongTermKeyRequestNegativeReply", "LeReadSupportedStates", "LeReceiverTest", "LeTransmitterTest",
   "LeTestEnd", "Vendor"]

theorem replyNames_at {VS VR : Type} (r : ReturnParameters VS VR) : replyNames[r.ctorIdx]? = some r.name := by
  cases r <;> rfl

theorem replyNames_nodup : replyNames.Nodup := by decide +kernel

theorem replyNames_word : ∀ n ∈ replyNames, ∀ x ∈ n.toList, wordChar x = true := by decide +kernel

theorem reply_word {VS VR : Type} (r : ReturnParameters VS VR) : ∀ x ∈ r.name.toList, wordChar x = true :=
  replyNames_word _ (List.mem_of_getElem? (replyNames_at r))

/-- The text of Read Local Supported Commands' parameters. -/
def supportedCommandsText [Style] {VS : Type} (vs : VS → Text) (p : LocalSupportedCommands VS) : Text :=
  fmtStruct "LocalSupportedCommands" [("status", p.status.debug vs),
    ("supported_commands", commandFlagsText p.supportedCommands)]

theorem supportedCommands_text [Style] {ε VS : Type} (vs : VS → Text) (p : LocalSupportedCommands VS) :
    p.debug (ε := ε) vs = .ok (supportedCommandsText vs p) := by
  unfold LocalSupportedCommands.debug
  rw [commandFlags_text]
  rfl

theorem supportedCommands_sync [Style] {VS : Type} {vs : VS → Text} (hv : Legible vs) (a b : LocalSupportedCommands VS) :
    Sync (supportedCommandsText vs a) (supportedCommandsText vs b)
      (a.status = b.status ∧ a.supportedCommands.arr.val.take 39 = b.supportedCommands.arr.val.take 39) :=
  struct_sync _ (fields_cons _ (status_sync hv _ _) (fields_one _ (commandFlags_sync _ _)))

/-- The texts of the fields of a reply. -/
def replyTexts [Style] {VS VR : Type} (c : Cfg) (vs : VS → Text) (vr : VR → Text) : ReturnParameters VS VR → List Text
  | .readLocalSupportedCommands p => [supportedCommandsText vs p]
  | r => match r.fields (ε := Unit) c vs vr with
    | .ok ts => ts
    | _ => []

theorem reply_fields [Style] {ε VS VR : Type} (c : Cfg) (vs : VS → Text) (vr : VR → Text) (r : ReturnParameters VS VR) :
    r.fields (ε := ε) c vs vr = .ok (replyTexts c vs vr r) := by
  cases r with
  | readLocalSupportedCommands p =>
    unfold ReturnParameters.fields
    simp only [supportedCommands_text]
    rfl
  | _ => rfl

theorem reply_sync [Style] (c : Cfg) (V : Vendor) {vs : V.VStatus → Text} {vr : V.VRet → Text} (hv : Legible vs)
    (hr : Legible vr) (r r' : ReturnParameters V.VStatus V.VRet) (h : ValidReply c V r) (h' : ValidReply c V r') :
    Sync (fmtVariant r.name (replyTexts c vs vr r)) (fmtVariant r'.name (replyTexts c vs vr r')) (SameReplyShown r r') := by
  refine variant_name (reply_word r) (reply_word r') fun e => ?_
  have hi : r.ctorIdx = r'.ctorIdx :=
    nodup_idx replyNames_nodup (replyNames_at r) (by rw [e]; exact replyNames_at r')
  clear e
  cases r <;> cases r' <;> first | exact absurd hi (Nat.ne_of_beq_eq_false rfl) | skip
  case spontaneous.spontaneous => exact variant_unit _ (Or.inl rfl)
  case setEventMask.setEventMask a b => exact (variant_one _ (status_sync hv a b)).mono fun e => Or.inl (by rw [e])
  case reset.reset a b => exact (variant_one _ (status_sync hv a b)).mono fun e => Or.inl (by rw [e])
  case readTxPowerLevel.readTxPowerLevel a b =>
    exact (variant_one _ (txPowerLevelRet_sync hv a b)).mono fun e => Or.inl (by rw [e])
  case readLocalVersionInformation.readLocalVersionInformation a b =>
    exact (variant_one _ (localVersionInfo_sync hv a b)).mono fun e => Or.inl (by rw [e])
  case readLocalSupportedCommands.readLocalSupportedCommands a b =>
    refine (variant_one _ (supportedCommands_sync hv a b)).mono fun e => ?_
    obtain ⟨s, f⟩ := a
    obtain ⟨s', g⟩ := b
    obtain ⟨h1, h2⟩ := e
    simp only at h1
    subst h1
    exact Or.inr ⟨_, _, _, rfl, rfl, h2⟩
  case readLocalSupportedFeatures.readLocalSupportedFeatures a b =>
    exact (variant_one _ (localSupportedFeatures_sync hv c a b h.2 h'.2)).mono fun e => Or.inl (by rw [e])
  case readBdAddr.readBdAddr a b =>
    exact (variant_one _ (readBdAddr_sync hv a b)).mono fun e => Or.inl (by rw [e])
  case readRssi.readRssi a b =>
    exact (variant_one _ (readRssi_sync hv a b)).mono fun e => Or.inl (by rw [e])
  case leSetEventMask.leSetEventMask a b => exact (variant_one _ (status_sync hv a b)).mono fun e => Or.inl (by rw [e])
  case leReadBufferSize.leReadBufferSize a b =>
    exact (variant_one _ (leReadBufferSize_sync hv a b)).mono fun e => Or.inl (by rw [e])
  case leReadLocalSupportedFeatures.leReadLocalSupportedFeatures a b =>
    exact (variant_one _ (leSupportedFeatures_sync hv c a b h.2 h'.2)).mono fun e => Or.inl (by rw [e])
  case leSetRandomAddress.leSetRandomAddress a b => exact (variant_one _ (status_sync hv a b)).mono fun e => Or.inl (by rw [e])
  case leSetAdvertisingParameters.leSetAdvertisingParameters a b => exact (variant_one _ (status_sync hv a b)).mono fun e => Or.inl (by rw [e])
  case leReadAdvertisingChannelTxPower.leReadAdvertisingChannelTxPower a b =>
    exact (variant_one _ (leAdvertisingChannelTxPower_sync hv a b)).mono fun e => Or.inl (by rw [e])
  case leSetAdvertisingData.leSetAdvertisingData a b => exact (variant_one _ (status_sync hv a b)).mono fun e => Or.inl (by rw [e])
  case leSetScanResponseData.leSetScanResponseData a b => exact (variant_one _ (status_sync hv a b)).mono fun e => Or.inl (by rw [e])
  case leSetAdvertiseEnable.leSetAdvertiseEnable a b => exact (variant_one _ (status_sync hv a b)).mono fun e => Or.inl (by rw [e])
  case leSetAdvertisingEnable.leSetAdvertisingEnable a b => exact (variant_one _ (status_sync hv a b)).mono fun e => Or.inl (by rw [e])
  case leSetScanParameters.leSetScanParameters a b => exact (variant_one _ (status_sync hv a b)).mono fun e => Or.inl (by rw [e])
  case leSetScanEnable.leSetScanEnable a b => exact (variant_one _ (status_sync hv a b)).mono fun e => Or.inl (by rw [e])
  case leCreateConnectionCancel.leCreateConnectionCancel a b => exact (variant_one _ (status_sync hv a b)).mono fun e => Or.inl (by rw [e])
  case leReadWhiteListSize.leReadWhiteListSize a m b n =>
    exact (variant_two _ (status_sync hv a b) (dec_sync m n)).mono fun e => Or.inl (by rw [e.1, e.2])
  case leClearWhiteList.leClearWhiteList a b => exact (variant_one _ (status_sync hv a b)).mono fun e => Or.inl (by rw [e])
  case leAddDeviceToWhiteList.leAddDeviceToWhiteList a b => exact (variant_one _ (status_sync hv a b)).mono fun e => Or.inl (by rw [e])
  case leRemoveDeviceFromWhiteList.leRemoveDeviceFromWhiteList a b => exact (variant_one _ (status_sync hv a b)).mono fun e => Or.inl (by rw [e])
  case leSetHostChannelClassification.leSetHostChannelClassification a b => exact (variant_one _ (status_sync hv a b)).mono fun e => Or.inl (by rw [e])
  case leReadChannelMap.leReadChannelMap a b =>
    exact (variant_one _ (channelMapParameters_sync hv a b)).mono fun e => Or.inl (by rw [e])
  case leEncrypt.leEncrypt a b =>
    exact (variant_one _ (encryptedReturnParameters_sync hv a b)).mono fun e => Or.inl (by rw [e])
  case leRand.leRand a b =>
    exact (variant_one _ (leRandom_sync hv a b)).mono fun e => Or.inl (by rw [e])
  case leLongTermKeyRequestReply.leLongTermKeyRequestReply a b =>
    exact (variant_one _ (leLongTermRequestReply_sync hv a b)).mono fun e => Or.inl (by rw [e])
  case leLongTermKeyRequestNegativeReply.leLongTermKeyRequestNegativeReply a b =>
    exact (variant_one _ (leLongTermRequestReply_sync hv a b)).mono fun e => Or.inl (by rw [e])
  case leReadSupportedStates.leReadSupportedStates a b =>
    exact (variant_one _ (leReadSupportedStates_sync hv c a b h.2 h'.2)).mono fun e => Or.inl (by rw [e])
  case leReceiverTest.leReceiverTest a b => exact (variant_one _ (status_sync hv a b)).mono fun e => Or.inl (by rw [e])
  case leTransmitterTest.leTransmitterTest a b => exact (variant_one _ (status_sync hv a b)).mono fun e => Or.inl (by rw [e])
  case leTestEnd.leTestEnd a b =>
    exact (variant_one _ (leTestEnd_sync hv a b)).mono fun e => Or.inl (by rw [e])
  case vendor.vendor a b => exact (variant_one _ (Sync.of_legible hr a b)).mono fun e => Or.inl (by rw [e])

theorem sameReplyShown_text [Style] {VS VR : Type} (c : Cfg) (vs : VS → Text) (vr : VR → Text) {r r' : ReturnParameters VS VR}
    (h : SameReplyShown r r') :
    fmtVariant r.name (replyTexts c vs vr r) = fmtVariant r'.name (replyTexts c vs vr r') := by
  rcases h with rfl | ⟨s, f, g, rfl, rfl, h⟩
  · rfl
  · simp only [ReturnParameters.name, replyTexts, supportedCommandsText, commandFlagsText_congr h]

/-! ## Errors -/

def intervalErrorNames : List String :=
  ["Incomplete", "IntervalTooShort", "IntervalTooLong", "IntervalInverted", "BadConnectionLatency",
   "SupervisionTimeoutTooShort", "SupervisionTimeoutTooLong", "ImpossibleSupervisionTimeout"]

theorem intervalErrorNames_at (e : ConnectionIntervalError) : intervalErrorNames[e.ctorIdx]? = some e.name := by
  cases e <;> rfl

theorem intervalErrorNames_nodup : intervalErrorNames.Nodup := by decide +kernel

theorem intervalErrorNames_word : ∀ n ∈ intervalErrorNames, ∀ x ∈ n.toList, wordChar x = true := by decide +kernel

theorem intervalError_sync [Style] (a b : ConnectionIntervalError) : Sync a.debug b.debug (a = b) := by
  refine variant_name (intervalErrorNames_word _ (List.mem_of_getElem? (intervalErrorNames_at a)))
    (intervalErrorNames_word _ (List.mem_of_getElem? (intervalErrorNames_at b))) fun e => ?_
  have hi : a.ctorIdx = b.ctorIdx :=
    nodup_idx intervalErrorNames_nodup (intervalErrorNames_at a) (by rw [e]; exact intervalErrorNames_at b)
  clear e
  cases a <;> cases b <;> first | exact absurd hi (Nat.ne_of_beq_eq_false rfl) | skip
  case incomplete.incomplete => exact variant_unit _ rfl
  case intervalTooShort.intervalTooShort a b => exact (variant_one _ (duration_sync a b)).mono fun e => by rw [e]
  case intervalTooLong.intervalTooLong a b => exact (variant_one _ (duration_sync a b)).mono fun e => by rw [e]
  case intervalInverted.intervalInverted a m b n =>
    exact (variant_two _ (duration_sync a b) (duration_sync m n)).mono fun e => by rw [e.1, e.2]
  case badConnectionLatency.badConnectionLatency a b => exact (variant_one _ (dec16_sync a b)).mono fun e => by rw [e]
  case supervisionTimeoutTooShort.supervisionTimeoutTooShort a m b n =>
    exact (variant_two _ (duration_sync a b) (duration_sync m n)).mono fun e => by rw [e.1, e.2]
  case supervisionTimeoutTooLong.supervisionTimeoutTooLong a b => exact (variant_one _ (duration_sync a b)).mono fun e => by rw [e]
  case impossibleSupervisionTimeout.impossibleSupervisionTimeout a b => exact (variant_one _ (duration_sync a b)).mono fun e => by rw [e]

def evErrorNames : List String :=
  ["UnknownEvent", "BadLength", "BadStatus", "BadLinkType", "BadEncryptionEnabledValue", "BadReason",
   "BadEncryptionType", "UnknownOpcode", "BadCommandFlag", "InvalidChannelMap", "InvalidLeStates",
   "BadLeConnectionRole", "BadLeAddressType", "BadConnectionInterval", "BadLeCentralClockAccuracy",
   "LeAdvertisementReportIncomplete", "BadLeAdvertisementType", "BadRemoteUsedFeatureFlag", "BadPhy", "Vendor"]

theorem evErrorNames_at {VE : Type} (e : EvError VE) : evErrorNames[e.ctorIdx]? = some e.name := by
  cases e <;> rfl

theorem evErrorNames_nodup : evErrorNames.Nodup := by decide +kernel

theorem evErrorNames_word : ∀ n ∈ evErrorNames, ∀ x ∈ n.toList, wordChar x = true := by decide +kernel

theorem evError_sync [Style] {VE : Type} {ve : VE → Text} (hv : Legible ve) (a b : EvError VE) :
    Sync (a.debug ve) (b.debug ve) (a = b) := by
  refine variant_name (evErrorNames_word _ (List.mem_of_getElem? (evErrorNames_at a)))
    (evErrorNames_word _ (List.mem_of_getElem? (evErrorNames_at b))) fun e => ?_
  have hi : a.ctorIdx = b.ctorIdx :=
    nodup_idx evErrorNames_nodup (evErrorNames_at a) (by rw [e]; exact evErrorNames_at b)
  clear e
  cases a <;> cases b <;> first | exact absurd hi (Nat.ne_of_beq_eq_false rfl) | skip
  case unknownEvent.unknownEvent a b => exact (variant_one _ (dec8_sync a b)).mono fun e => by rw [e]
  case badLength.badLength a m b n =>
    exact (variant_two _ (dec_sync a b) (dec_sync m n)).mono fun e => by rw [e.1, e.2]
  case badStatus.badStatus a b => exact (variant_one _ (dec8_sync a b)).mono fun e => by rw [e]
  case badLinkType.badLinkType a b => exact (variant_one _ (dec8_sync a b)).mono fun e => by rw [e]
  case badEncryptionEnabledValue.badEncryptionEnabledValue a b => exact (variant_one _ (dec8_sync a b)).mono fun e => by rw [e]
  case badReason.badReason a b => exact (variant_one _ (dec8_sync a b)).mono fun e => by rw [e]
  case badEncryptionType.badEncryptionType a b => exact (variant_one _ (dec8_sync a b)).mono fun e => by rw [e]
  case unknownOpcode.unknownOpcode a b => exact (variant_one _ (opcode_sync a b)).mono fun e => by rw [e]
  case badCommandFlag.badCommandFlag => exact variant_unit _ rfl
  case invalidChannelMap.invalidChannelMap a b => exact (variant_one _ (arr_sync a b)).mono fun e => by rw [e]
  case invalidLeStates.invalidLeStates a b => exact (variant_one _ (dec64_sync a b)).mono fun e => by rw [e]
  case badLeConnectionRole.badLeConnectionRole a b => exact (variant_one _ (dec8_sync a b)).mono fun e => by rw [e]
  case badLeAddressType.badLeAddressType a b => exact (variant_one _ (dec8_sync a b)).mono fun e => by rw [e]
  case badConnectionInterval.badConnectionInterval a b => exact (variant_one _ (intervalError_sync a b)).mono fun e => by rw [e]
  case badLeCentralClockAccuracy.badLeCentralClockAccuracy a b => exact (variant_one _ (dec8_sync a b)).mono fun e => by rw [e]
  case leAdvertisementReportIncomplete.leAdvertisementReportIncomplete => exact variant_unit _ rfl
  case badLeAdvertisementType.badLeAdvertisementType a b => exact (variant_one _ (dec8_sync a b)).mono fun e => by rw [e]
  case badRemoteUsedFeatureFlag.badRemoteUsedFeatureFlag a b => exact (variant_one _ (dec64_sync a b)).mono fun e => by rw [e]
  case badPhy.badPhy a b => exact (variant_one _ (dec8_sync a b)).mono fun e => by rw [e]
  case vendor.vendor a b => exact (variant_one _ (Sync.of_legible hv a b)).mono fun e => by rw [e]

theorem uartError_sync [Style] {E VE : Type} {ee : E → Text} {ve : VE → Text} (he : Legible ee) (hv : Legible ve)
    (a b : UartError E VE) : Sync (a.debug ee ve) (b.debug ee ve) (a = b) := by
  cases a <;> cases b <;> simp only [UartError.debug] <;> refine variant_name (by decide) (by decide) fun e => ?_ <;>
    first | exact absurd e (by decide) | skip
  case badPacketType.badPacketType a b => exact (variant_one _ (dec8_sync a b)).mono fun e => by rw [e]
  case ble.ble a b => exact (variant_one _ (evError_sync hv a b)).mono fun e => by rw [e]
  case comm.comm a b => exact (variant_one _ (Sync.of_legible he a b)).mono fun e => by rw [e]

theorem eventLinkError_sync [Style] {E VE : Type} {ee : E → Text} {ve : VE → Text} (he : Legible ee) (hv : Legible ve)
    (a b : EventLinkError E VE) : Sync (a.debug ee ve) (b.debug ee ve) (a = b) := by
  cases a <;> cases b <;> simp only [EventLinkError.debug] <;> refine variant_name (by decide) (by decide) fun e => ?_ <;>
    first | exact absurd e (by decide) | skip
  case ble.ble a b => exact (variant_one _ (evError_sync hv a b)).mono fun e => by rw [e]
  case comm.comm a b => exact (variant_one _ (Sync.of_legible he a b)).mono fun e => by rw [e]

theorem uartNb_sync [Style] {E VE : Type} {ee : E → Text} {ve : VE → Text} (he : Legible ee) (hv : Legible ve)
    (a b : Nb (UartError E VE)) :
    Sync (a.debug (UartError.debug ee ve)) (b.debug (UartError.debug ee ve)) (a = b) := by
  rcases a with _ | a <;> rcases b with _ | b
  · exact variant_unit _ rfl
  · cases b <;> simp only [Nb.debug, UartError.debug] <;>
      exact variant_name (by decide) (by decide) fun e => absurd e (by decide)
  · cases a <;> simp only [Nb.debug, UartError.debug] <;>
      exact variant_name (by decide) (by decide) fun e => absurd e (by decide)
  · exact (uartError_sync he hv a b).mono fun e => by rw [e]

theorem linkNb_sync [Style] {E VE : Type} {ee : E → Text} {ve : VE → Text} (he : Legible ee) (hv : Legible ve)
    (a b : Nb (EventLinkError E VE)) :
    Sync (a.debug (EventLinkError.debug ee ve)) (b.debug (EventLinkError.debug ee ve)) (a = b) := by
  rcases a with _ | a <;> rcases b with _ | b
  · exact variant_unit _ rfl
  · cases b <;> simp only [Nb.debug, EventLinkError.debug] <;>
      exact variant_name (by decide) (by decide) fun e => absurd e (by decide)
  · cases a <;> simp only [Nb.debug, EventLinkError.debug] <;>
      exact variant_name (by decide) (by decide) fun e => absurd e (by decide)
  · exact (eventLinkError_sync he hv a b).mono fun e => by rw [e]

/-! ## Events -/

/-- Lists in braces, one item after the other. -/
theorem pairs_sync (ps qs : List NumberOfCompletedPacketsPair) :
    Sync ('{' :: ((ps.map NumberOfCompletedPacketsPair.debug).flatten ++ ['}']))
      ('{' :: ((qs.map NumberOfCompletedPacketsPair.debug).flatten ++ ['}'])) (ps = qs) := by
  refine Sync.of_closed ?_
  intro r s h
  simp only [List.cons_append, List.append_assoc, List.nil_append, List.cons.injEq, true_and] at h
  induction ps generalizing qs with
  | nil =>
    cases qs with
    | nil => exact ⟨rfl, by simpa using h⟩
    | cons q qs =>
      obtain ⟨t, ht⟩ := pairDebug_head q
      simp [ht] at h
  | cons p ps ih =>
    cases qs with
    | nil =>
      obtain ⟨t, ht⟩ := pairDebug_head p
      simp [ht] at h
    | cons q qs =>
      simp only [List.map_cons, List.flatten_cons, List.append_assoc] at h
      obtain ⟨rfl, h1⟩ := pairDebug_inj h
      obtain ⟨rfl, h2⟩ := ih qs h1
      exact ⟨rfl, h2⟩

theorem reports_sync (ps qs : List LeAdvertisement) :
    Sync ('{' :: ((ps.map LeAdvertisement.debug).flatten ++ ['}']))
      ('{' :: ((qs.map LeAdvertisement.debug).flatten ++ ['}'])) (ps = qs) := by
  refine Sync.of_closed ?_
  intro r s h
  simp only [List.cons_append, List.append_assoc, List.nil_append, List.cons.injEq, true_and] at h
  induction ps generalizing qs with
  | nil =>
    cases qs with
    | nil => exact ⟨rfl, by simpa using h⟩
    | cons q qs =>
      obtain ⟨t, ht⟩ := advertisement_debug_head q
      simp [ht] at h
  | cons p ps ih =>
    cases qs with
    | nil =>
      obtain ⟨t, ht⟩ := advertisement_debug_head p
      simp [ht] at h
    | cons q qs =>
      simp only [List.map_cons, List.flatten_cons, List.append_assoc] at h
      obtain ⟨rfl, h1⟩ := advertisement_debug_inj h
      obtain ⟨rfl, h2⟩ := ih qs h1
      exact ⟨rfl, h2⟩

def eventNames : List String :=
  ["ConnectionComplete", "DisconnectionComplete", "EncryptionChange", "ReadRemoteVersionInformationComplete",
   "CommandComplete", "CommandStatus", "HardwareError", "NumberOfCompletedPackets", "DataBufferOverflow",
   "EncryptionKeyRefreshComplete", "LeConnectionComplete", "LeAdvertisingReport", "LeConnectionUpdateComplete",
   "LeReadRemoteUsedFeaturesComplete", "LeLongTermKeyRequest", "LeDataLengthChangeEvent", "LePhyUpdateComplete",
   "Vendor"]

theorem eventNames_at {VS VR VEv : Type} (e : Event VS VR VEv) : eventNames[e.ctorIdx]? = some e.name := by
  cases e <;> rfl

theorem eventNames_nodup : eventNames.Nodup := by decide +kernel

theorem eventNames_word : ∀ n ∈ eventNames, ∀ x ∈ n.toList, wordChar x = true := by decide +kernel

theorem event_word {VS VR VEv : Type} (e : Event VS VR VEv) : ∀ x ∈ e.name.toList, wordChar x = true :=
  eventNames_word _ (List.mem_of_getElem? (eventNames_at e))

end Bt
