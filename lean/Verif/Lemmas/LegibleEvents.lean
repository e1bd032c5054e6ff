import Verif.Lemmas.Legible
import Verif.Lemmas.FlagTables
import Verif.Spec.ValidEvents

/-! # Helper lemmas: the texts of events and errors can be read off -/

namespace Bt

open Spec

theorem nodup_idx {α : Type} {l : List α} (hn : l.Nodup) {i j : Nat} {a : α} (hi : l[i]? = some a)
    (hj : l[j]? = some a) : i = j := by
  obtain ⟨h1, h2⟩ := List.getElem?_eq_some_iff.mp hi
  obtain ⟨h3, h4⟩ := List.getElem?_eq_some_iff.mp hj
  exact (List.getElem_inj hn).mp (h2.trans h4.symm)

/-! ## Statuses -/

def statusNames : List String := (standardStatuses (VS := Unit)).map Status.name ++ ["Vendor"]

theorem statusNames_at {VS : Type} (s : Status VS) : statusNames[s.ctorIdx]? = some s.name := by
  cases s <;> rfl

theorem statusNames_nodup : statusNames.Nodup := by decide +kernel

theorem statusNames_word : ∀ n ∈ statusNames, ∀ x ∈ n.toList, wordChar x = true := by decide +kernel

theorem status_word {VS : Type} (s : Status VS) : ∀ x ∈ s.name.toList, wordChar x = true :=
  statusNames_word _ (List.mem_of_getElem? (statusNames_at s))

theorem status_of_idx {VS : Type} (s : Status VS) :
    (∃ v, s = .vendor v) ∨ (standardStatuses (VS := VS))[s.ctorIdx]? = some s := by
  cases s <;> first | exact Or.inr rfl | exact Or.inl ⟨_, rfl⟩

theorem status_debug [Style] {VS : Type} (vs : VS → Text) (s : Status VS) :
    ∃ ts, s.debug vs = fmtVariant s.name ts ∧ ((ts = [] ∧ ∀ v, s ≠ .vendor v) ∨ ∃ v, s = .vendor v ∧ ts = [vs v]) := by
  cases s with
  | vendor v => exact ⟨_, rfl, Or.inr ⟨v, rfl, rfl⟩⟩
  | _ => exact ⟨_, rfl, Or.inl ⟨rfl, by simp⟩⟩

theorem status_sync [Style] {VS : Type} {vs : VS → Text} (hv : Legible vs) (s s' : Status VS) :
    Sync (s.debug vs) (s'.debug vs) (s = s') := by
  obtain ⟨ts, h1, h2⟩ := status_debug vs s
  obtain ⟨us, g1, g2⟩ := status_debug vs s'
  rw [h1, g1]
  refine variant_name (status_word s) (status_word s') fun e => ?_
  have hi : s.ctorIdx = s'.ctorIdx :=
    nodup_idx statusNames_nodup (statusNames_at s) (by rw [e]; exact statusNames_at s')
  rw [← e]
  rcases h2 with ⟨rfl, h2⟩ | ⟨v, rfl, rfl⟩
  · rcases g2 with ⟨rfl, g2⟩ | ⟨v', rfl, rfl⟩
    · refine variant_unit _ ?_
      rcases status_of_idx s with ⟨v, hs⟩ | hs
      · exact absurd hs (h2 v)
      · rcases status_of_idx s' with ⟨v, hs'⟩ | hs'
        · exact absurd hs' (g2 v)
        · rw [hi, hs'] at hs
          exact (Option.some.inj hs).symm
    · rcases status_of_idx s with ⟨v, hs⟩ | hs
      · exact absurd hs (h2 v)
      · rw [hi] at hs; exact absurd hs (by simp [standardStatuses]; intro h; cases h)
  · rcases g2 with ⟨rfl, g2⟩ | ⟨v', rfl, rfl⟩
    · rcases status_of_idx s' with ⟨v, hs⟩ | hs
      · exact absurd hs (g2 v)
      · rw [← hi] at hs; exact absurd hs (by simp [standardStatuses]; intro h; cases h)
    · exact (variant_one _ (Sync.of_legible hv v v')).mono fun h => by rw [h]

/-! ## Parts of events -/

theorem handle_sync [Style] (a b : ConnectionHandle) : Sync a.debug b.debug (a = b) :=
  (tuple_sync _ (items_one (dec16_sync _ _))).mono fun h => by cases a; cases b; cases h; rfl

theorem opcode_sync [Style] (a b : Opcode) : Sync a.debug b.debug (a = b) :=
  (tuple_sync _ (items_one (dec16_sync _ _))).mono fun h => by cases a; cases b; cases h; rfl

theorem channels_sync [Style] (a b : ChannelClassification) :
    Sync (ChannelClassification.debug a) (ChannelClassification.debug b) (a = b) :=
  (tuple_sync _ (items_one (arr_sync _ _))).mono fun h => by cases a; cases b; cases h; rfl

theorem linkType_sync (a b : LinkType) : Sync a.debug b.debug (a = b) := by
  cases a <;> cases b <;> exact word_sync (by decide) (by decide) (by decide)

theorem encryption_sync (a b : Encryption) : Sync a.debug b.debug (a = b) := by
  cases a <;> cases b <;> exact word_sync (by decide) (by decide) (by decide)

theorem role_sync (a b : ConnectionRole) : Sync a.debug b.debug (a = b) := by
  cases a <;> cases b <;> exact word_sync (by decide) (by decide) (by decide)

theorem phy_sync (a b : Phy) : Sync a.debug b.debug (a = b) := by
  cases a <;> cases b <;> exact word_sync (by decide) (by decide) (by decide)

theorem clock_sync (a b : CentralClockAccuracy) : Sync a.debug b.debug (a = b) := by
  cases a <;> cases b <;> exact word_sync (by decide) (by decide) (by decide)

theorem bdAddr_sync [Style] (a b : BdAddr) : Sync a.debugIn b.debugIn (a = b) :=
  (tuple_sync _ (items_one (arr_sync _ _))).mono fun h => by cases a; cases b; cases h; rfl

theorem addrType_sync [Style] (a b : BdAddrType) : Sync a.debugIn b.debugIn (a = b) := by
  cases a <;> cases b <;> simp only [BdAddrType.debugIn] <;>
    refine variant_name (by decide) (by decide) fun e => ?_ <;>
    first
    | exact absurd e (by decide)
    | exact (variant_one _ (bdAddr_sync _ _)).mono fun h => by rw [h]

theorem pair_sync [Style] (a b : NumberOfCompletedPacketsPair) : Sync a.debugIn b.debugIn (a = b) :=
  (struct_sync _ (fields_cons _ (handle_sync _ _) (fields_one _ (dec_sync _ _)))).mono fun h => by
      cases a; cases b; obtain ⟨rfl, rfl⟩ := h; rfl

theorem rssi_sync [Style] (a b : Option Int8) : Sync (fmtRssiIn a) (fmtRssiIn b) (a = b) := by
  cases a <;> cases b <;> simp only [fmtRssiIn] <;>
    refine variant_name (by decide) (by decide) fun e => ?_
  · exact variant_unit _ True.intro
  · exact absurd e (by decide)
  · exact absurd e (by decide)
  · exact (variant_one _ (int8_sync _ _)).mono fun h => by rw [h]

theorem advertisementEvent_sync (a b : AdvertisementEvent) : Sync a.debug b.debug (a = b) := by
  cases a <;> cases b <;> exact word_sync (by decide) (by decide) (by decide)

theorem advertisement_sync [Style] (a b : LeAdvertisement) : Sync a.debugIn b.debugIn (a = b) :=
  (struct_sync _ (fields_cons _ (advertisementEvent_sync _ _) (fields_cons _ (addrType_sync _ _) (fields_cons _
    (list_sync _ _) (fields_one _ (rssi_sync _ _)))))).mono fun h => by
      cases a; cases b; obtain ⟨rfl, rfl, rfl, rfl⟩ := h; rfl

theorem bflag_sync [Style] (n : String) (a b : BFlag) : Sync (a.debug n) (b.debug n) (a = b) :=
  (struct_sync _ (fields_cons _ (dec_sync _ _) (fields_one _ (dec8_sync _ _)))).mono fun h => by
      cases a; cases b; obtain ⟨rfl, rfl⟩ := h; rfl

section

open Plain

/-- The plain forms of `Model/Debug.lean` are those of `Model/DebugEvent.lean`. -/
theorem bdAddr_plain (a : BdAddr) : a.debugIn = a.debug := by
  have e : "BdAddr(".toList = "BdAddr".toList ++ ['('] := by decide +kernel
  unfold BdAddr.debug
  rw [e]
  simp only [List.append_assoc]
  rfl

theorem addrType_plain (a : BdAddrType) : a.debugIn = a.debug := by
  have e : "Public(".toList = "Public".toList ++ ['('] := by decide +kernel
  have e' : "Random(".toList = "Random".toList ++ ['('] := by decide +kernel
  cases a <;> unfold BdAddrType.debug BdAddrType.debugIn <;> simp only [e, e', bdAddr_plain, List.append_assoc] <;> rfl

theorem pair_plain (p : NumberOfCompletedPacketsPair) : p.debugIn = p.debug := by
  have e : "NumberOfCompletedPacketsPair { conn_handle: ConnectionHandle(".toList =
      "NumberOfCompletedPacketsPair".toList ++ [' ', '{', ' '] ++ "conn_handle".toList ++ [':', ' '] ++
        "ConnectionHandle".toList ++ ['('] := by decide +kernel
  have e' : "), num_completed_packets: ".toList = [')', ',', ' '] ++ "num_completed_packets".toList ++ [':', ' '] := by
    decide +kernel
  have e2 : " }".toList = [' ', '}'] := by decide
  unfold NumberOfCompletedPacketsPair.debug NumberOfCompletedPacketsPair.debugIn ConnectionHandle.debug fmtStruct fmtTuple
  rw [if_neg (by decide), if_neg (by decide), e, e', e2]
  simp only [fmtFields, fmtItems, id, List.append_assoc, List.cons_append, List.nil_append]

theorem rssi_plain (x : Option Int8) : fmtRssiIn x = fmtRssi x := by
  have e : "Some(".toList = "Some".toList ++ ['('] := by decide +kernel
  cases x with
  | none => rfl
  | some x =>
    unfold fmtRssi
    rw [e]
    simp only [List.append_assoc]
    rfl

theorem advertisement_plain (a : LeAdvertisement) : a.debugIn = a.debug := by
  have e1 : "LeAdvertisement { event_type: ".toList =
      "LeAdvertisement".toList ++ [' ', '{', ' '] ++ "event_type".toList ++ [':', ' '] := by decide +kernel
  have e2 : ", address: ".toList = [',', ' '] ++ "address".toList ++ [':', ' '] := by decide +kernel
  have e3 : ", data: ".toList = [',', ' '] ++ "data".toList ++ [':', ' '] := by decide +kernel
  have e4 : ", rssi: ".toList = [',', ' '] ++ "rssi".toList ++ [':', ' '] := by decide +kernel
  have e5 : " }".toList = [' ', '}'] := by decide
  unfold LeAdvertisement.debug LeAdvertisement.debugIn fmtStruct fmtList
  rw [if_neg (by decide), if_neg (by decide), e1, e2, e3, e4, e5, addrType_plain, rssi_plain]
  simp only [fmtFields, List.append_assoc, List.cons_append, List.nil_append]

end

theorem interval_sync [Style] (a b : FixedConnectionInterval) : Sync a.debug b.debug (a = b) :=
  (struct_sync _ (fields_cons _ (duration_sync _ _) (fields_cons _ (dec16_sync _ _)
    (fields_one _ (duration_sync _ _))))).mono fun h => by
      cases a; cases b; obtain ⟨rfl, rfl, rfl⟩ := h; rfl

theorem encrypted_sync (a b : Arr 16) : Sync (encryptedBlockDebug a) (encryptedBlockDebug b) (a = b) := by
  refine Sync.of_closed fun r s e => ?_
  unfold encryptedBlockDebug at e
  generalize "AES-128 Encrypted Data (".toList = t0 at e
  generalize ")\n".toList = t1 at e
  simp only [List.append_assoc, List.append_cancel_left_eq] at e
  obtain ⟨h1, h2⟩ := fmtHexSlice_inj (by rw [a.len, b.len]) e
  exact ⟨Arr.ext' h1, List.append_cancel_left h2⟩

/-! ## Events and replies -/

theorem connectionComplete_sync [Style] {VS : Type} {vs : VS → Text} (hv : Legible vs) (a b : ConnectionComplete VS) :
    Sync (a.debug vs) (b.debug vs) (a = b) :=
  (struct_sync _ (fields_cons _ (status_sync hv _ _) (fields_cons _ (handle_sync _ _) (fields_cons _
    (bdAddr_sync _ _) (fields_cons _ (linkType_sync _ _) (fields_one _ (bool_sync _ _))))))).mono fun h => by
      cases a; cases b; obtain ⟨rfl, rfl, rfl, rfl, rfl⟩ := h; rfl

theorem disconnectionComplete_sync [Style] {VS : Type} {vs : VS → Text} (hv : Legible vs) (a b : DisconnectionComplete VS) :
    Sync (a.debug vs) (b.debug vs) (a = b) :=
  (struct_sync _ (fields_cons _ (status_sync hv _ _) (fields_cons _ (handle_sync _ _) (fields_one _ (status_sync
    hv _ _))))).mono fun h => by
      cases a; cases b; obtain ⟨rfl, rfl, rfl⟩ := h; rfl

theorem encryptionChange_sync [Style] {VS : Type} {vs : VS → Text} (hv : Legible vs) (a b : EncryptionChange VS) :
    Sync (a.debug vs) (b.debug vs) (a = b) :=
  (struct_sync _ (fields_cons _ (status_sync hv _ _) (fields_cons _ (handle_sync _ _) (fields_one _
    (encryption_sync _ _))))).mono fun h => by
      cases a; cases b; obtain ⟨rfl, rfl, rfl⟩ := h; rfl

theorem remoteVersionInformation_sync [Style] {VS : Type} {vs : VS → Text} (hv : Legible vs) (a b : RemoteVersionInformation VS) :
    Sync (a.debug vs) (b.debug vs) (a = b) :=
  (struct_sync _ (fields_cons _ (status_sync hv _ _) (fields_cons _ (handle_sync _ _) (fields_cons _ (dec8_sync
    _ _) (fields_cons _ (dec16_sync _ _) (fields_one _ (dec16_sync _ _))))))).mono fun h => by
      cases a; cases b; obtain ⟨rfl, rfl, rfl, rfl, rfl⟩ := h; rfl

theorem commandStatus_sync [Style] {VS : Type} {vs : VS → Text} (hv : Legible vs) (a b : CommandStatus VS) :
    Sync (a.debug vs) (b.debug vs) (a = b) :=
  (struct_sync _ (fields_cons _ (status_sync hv _ _) (fields_cons _ (dec8_sync _ _) (fields_one _ (opcode_sync _
    _))))).mono fun h => by
      cases a; cases b; obtain ⟨rfl, rfl, rfl⟩ := h; rfl

theorem hardwareError_sync [Style] (a b : HardwareError) :
    Sync a.debug b.debug (a = b) :=
  (struct_sync _ (fields_one _ (dec8_sync _ _))).mono fun h => by
      cases a; cases b; obtain rfl := h; rfl

theorem dataBufferOverflow_sync [Style] (a b : DataBufferOverflow) :
    Sync a.debug b.debug (a = b) :=
  (struct_sync _ (fields_one _ (linkType_sync _ _))).mono fun h => by
      cases a; cases b; obtain rfl := h; rfl

theorem encryptionKeyRefreshComplete_sync [Style] {VS : Type} {vs : VS → Text} (hv : Legible vs) (a b : EncryptionKeyRefreshComplete VS) :
    Sync (a.debug vs) (b.debug vs) (a = b) :=
  (struct_sync _ (fields_cons _ (status_sync hv _ _) (fields_one _ (handle_sync _ _)))).mono fun h => by
      cases a; cases b; obtain ⟨rfl, rfl⟩ := h; rfl

theorem leConnectionComplete_sync [Style] {VS : Type} {vs : VS → Text} (hv : Legible vs) (a b : LeConnectionComplete VS) :
    Sync (a.debug vs) (b.debug vs) (a = b) :=
  (struct_sync _ (fields_cons _ (status_sync hv _ _) (fields_cons _ (handle_sync _ _) (fields_cons _ (role_sync
    _ _) (fields_cons _ (addrType_sync _ _) (fields_cons _ (interval_sync _ _) (fields_one _ (clock_sync _
    _)))))))).mono fun h => by
      cases a; cases b; obtain ⟨rfl, rfl, rfl, rfl, rfl, rfl⟩ := h; rfl

theorem leConnectionUpdateComplete_sync [Style] {VS : Type} {vs : VS → Text} (hv : Legible vs) (a b : LeConnectionUpdateComplete VS) :
    Sync (a.debug vs) (b.debug vs) (a = b) :=
  (struct_sync _ (fields_cons _ (status_sync hv _ _) (fields_cons _ (handle_sync _ _) (fields_one _
    (interval_sync _ _))))).mono fun h => by
      cases a; cases b; obtain ⟨rfl, rfl, rfl⟩ := h; rfl

theorem leReadRemoteUsedFeaturesComplete_sync [Style] {VS : Type} {vs : VS → Text} (hv : Legible vs) (c : Cfg) (a b : LeReadRemoteUsedFeaturesComplete VS)
    (ha : ∀ j, a.features.toNat.testBit j = true → LeFeatureBit c j)
    (hb : ∀ j, b.features.toNat.testBit j = true → LeFeatureBit c j) :
    Sync (a.debug c vs) (b.debug c vs) (a = b) :=
  (struct_sync _ (fields_cons _ (status_sync hv _ _) (fields_cons _ (handle_sync _ _) (fields_one _ (flags_sync
    linkLayerFeature_sound (fun j h => (declared_linkLayerFeature c j).mpr (ha j h))
      fun j h =>
    (declared_linkLayerFeature c j).mpr (hb j h)))))).mono fun h => by
      cases a; cases b; obtain ⟨rfl, rfl, rfl⟩ := h; rfl

theorem leLongTermKeyRequest_sync [Style] (a b : LeLongTermKeyRequest) :
    Sync a.debug b.debug (a = b) :=
  (struct_sync _ (fields_cons _ (handle_sync _ _) (fields_cons _ (dec64_sync _ _) (fields_one _ (dec16_sync _
    _))))).mono fun h => by
      cases a; cases b; obtain ⟨rfl, rfl, rfl⟩ := h; rfl

theorem leDataLengthChangeEvent_sync [Style] (a b : LeDataLengthChangeEvent) :
    Sync a.debug b.debug (a = b) :=
  (struct_sync _ (fields_cons _ (handle_sync _ _) (fields_cons _ (dec16_sync _ _) (fields_cons _ (dec16_sync _
    _) (fields_cons _ (dec16_sync _ _) (fields_one _ (dec16_sync _ _))))))).mono fun h => by
      cases a; cases b; obtain ⟨rfl, rfl, rfl, rfl, rfl⟩ := h; rfl

theorem lePhyUpdateComplete_sync [Style] {VS : Type} {vs : VS → Text} (hv : Legible vs) (a b : LePhyUpdateComplete VS) :
    Sync (a.debug vs) (b.debug vs) (a = b) :=
  (struct_sync _ (fields_cons _ (handle_sync _ _) (fields_cons _ (status_sync hv _ _) (fields_cons _ (phy_sync _
    _) (fields_one _ (phy_sync _ _)))))).mono fun h => by
      cases a; cases b; obtain ⟨rfl, rfl, rfl, rfl⟩ := h; rfl

theorem txPowerLevelRet_sync [Style] {VS : Type} {vs : VS → Text} (hv : Legible vs) (a b : TxPowerLevelRet VS) :
    Sync (a.debug vs) (b.debug vs) (a = b) :=
  (struct_sync _ (fields_cons _ (status_sync hv _ _) (fields_cons _ (handle_sync _ _) (fields_one _ (int8_sync _
    _))))).mono fun h => by
      cases a; cases b; obtain ⟨rfl, rfl, rfl⟩ := h; rfl

theorem localVersionInfo_sync [Style] {VS : Type} {vs : VS → Text} (hv : Legible vs) (a b : LocalVersionInfo VS) :
    Sync (a.debug vs) (b.debug vs) (a = b) :=
  (struct_sync _ (fields_cons _ (status_sync hv _ _) (fields_cons _ (dec8_sync _ _) (fields_cons _ (dec16_sync _
    _) (fields_cons _ (dec8_sync _ _) (fields_cons _ (dec16_sync _ _) (fields_one _ (dec16_sync _ _)))))))).mono
    fun h => by
      cases a; cases b; obtain ⟨rfl, rfl, rfl, rfl, rfl, rfl⟩ := h; rfl

theorem localSupportedFeatures_sync [Style] {VS : Type} {vs : VS → Text} (hv : Legible vs) (c : Cfg) (a b : LocalSupportedFeatures VS)
    (ha : ∀ j, a.supportedFeatures.toNat.testBit j = true → LmpFeatureBit j)
    (hb : ∀ j, b.supportedFeatures.toNat.testBit j = true → LmpFeatureBit j) :
    Sync (a.debug c vs) (b.debug c vs) (a = b) :=
  (struct_sync _ (fields_cons _ (status_sync hv _ _) (fields_one _ (flags_sync lmpFeatures_sound (fun j h =>
    (declared_lmpFeatures c j).mpr (ha j h))
      fun j h => (declared_lmpFeatures c j).mpr (hb j h))))).mono
    fun h => by
      cases a; cases b; obtain ⟨rfl, rfl⟩ := h; rfl

theorem readBdAddr_sync [Style] {VS : Type} {vs : VS → Text} (hv : Legible vs) (a b : ReadBdAddr VS) :
    Sync (a.debug vs) (b.debug vs) (a = b) :=
  (struct_sync _ (fields_cons _ (status_sync hv _ _) (fields_one _ (bdAddr_sync _ _)))).mono fun h => by
      cases a; cases b; obtain ⟨rfl, rfl⟩ := h; rfl

theorem readRssi_sync [Style] {VS : Type} {vs : VS → Text} (hv : Legible vs) (a b : ReadRssi VS) :
    Sync (a.debug vs) (b.debug vs) (a = b) :=
  (struct_sync _ (fields_cons _ (status_sync hv _ _) (fields_cons _ (handle_sync _ _) (fields_one _ (int8_sync _
    _))))).mono fun h => by
      cases a; cases b; obtain ⟨rfl, rfl, rfl⟩ := h; rfl

theorem leReadBufferSize_sync [Style] {VS : Type} {vs : VS → Text} (hv : Legible vs) (a b : LeReadBufferSize VS) :
    Sync (a.debug vs) (b.debug vs) (a = b) :=
  (struct_sync _ (fields_cons _ (status_sync hv _ _) (fields_cons _ (dec16_sync _ _) (fields_one _ (dec8_sync _
    _))))).mono fun h => by
      cases a; cases b; obtain ⟨rfl, rfl, rfl⟩ := h; rfl

theorem leSupportedFeatures_sync [Style] {VS : Type} {vs : VS → Text} (hv : Legible vs) (c : Cfg) (a b : LeSupportedFeatures VS)
    (ha : ∀ j, a.supportedFeatures.toNat.testBit j = true → LeFeatureBit c j)
    (hb : ∀ j, b.supportedFeatures.toNat.testBit j = true → LeFeatureBit c j) :
    Sync (a.debug c vs) (b.debug c vs) (a = b) :=
  (struct_sync _ (fields_cons _ (status_sync hv _ _) (fields_one _ (flags_sync leFeatures_sound (fun j h =>
    (declared_leFeatures c j).mpr (ha j h))
      fun j h => (declared_leFeatures c j).mpr (hb j h))))).mono fun
    h => by
      cases a; cases b; obtain ⟨rfl, rfl⟩ := h; rfl

theorem leAdvertisingChannelTxPower_sync [Style] {VS : Type} {vs : VS → Text} (hv : Legible vs) (a b : LeAdvertisingChannelTxPower VS) :
    Sync (a.debug vs) (b.debug vs) (a = b) :=
  (struct_sync _ (fields_cons _ (status_sync hv _ _) (fields_one _ (int8_sync _ _)))).mono fun h => by
      cases a; cases b; obtain ⟨rfl, rfl⟩ := h; rfl

theorem channelMapParameters_sync [Style] {VS : Type} {vs : VS → Text} (hv : Legible vs) (a b : ChannelMapParameters VS) :
    Sync (a.debug vs) (b.debug vs) (a = b) :=
  (struct_sync _ (fields_cons _ (status_sync hv _ _) (fields_cons _ (handle_sync _ _) (fields_one _
    (channels_sync _ _))))).mono fun h => by
      cases a; cases b; obtain ⟨rfl, rfl, rfl⟩ := h; rfl

theorem encryptedReturnParameters_sync [Style] {VS : Type} {vs : VS → Text} (hv : Legible vs) (a b : EncryptedReturnParameters VS) :
    Sync (a.debug vs) (b.debug vs) (a = b) :=
  (struct_sync _ (fields_cons _ (status_sync hv _ _) (fields_one _ (encrypted_sync _ _)))).mono fun h => by
      cases a; cases b; obtain ⟨rfl, rfl⟩ := h; rfl

theorem leRandom_sync [Style] {VS : Type} {vs : VS → Text} (hv : Legible vs) (a b : LeRandom VS) :
    Sync (a.debug vs) (b.debug vs) (a = b) :=
  (struct_sync _ (fields_cons _ (status_sync hv _ _) (fields_one _ (dec64_sync _ _)))).mono fun h => by
      cases a; cases b; obtain ⟨rfl, rfl⟩ := h; rfl

theorem leLongTermRequestReply_sync [Style] {VS : Type} {vs : VS → Text} (hv : Legible vs) (a b : LeLongTermRequestReply VS) :
    Sync (a.debug vs) (b.debug vs) (a = b) :=
  (struct_sync _ (fields_cons _ (status_sync hv _ _) (fields_one _ (handle_sync _ _)))).mono fun h => by
      cases a; cases b; obtain ⟨rfl, rfl⟩ := h; rfl

theorem leReadSupportedStates_sync [Style] {VS : Type} {vs : VS → Text} (hv : Legible vs) (c : Cfg) (a b : LeReadSupportedStates VS)
    (ha : ∀ j, a.supportedStates.toNat.testBit j = true → LeStateBit j)
    (hb : ∀ j, b.supportedStates.toNat.testBit j = true → LeStateBit j) :
    Sync (a.debug c vs) (b.debug c vs) (a = b) :=
  (struct_sync _ (fields_cons _ (status_sync hv _ _) (fields_one _ (flags_sync leStates_sound (fun j h =>
    (declared_leStates c j).mpr (ha j h))
      fun j h => (declared_leStates c j).mpr (hb j h))))).mono fun h
    => by
      cases a; cases b; obtain ⟨rfl, rfl⟩ := h; rfl

theorem leTestEnd_sync [Style] {VS : Type} {vs : VS → Text} (hv : Legible vs) (a b : LeTestEnd VS) :
    Sync (a.debug vs) (b.debug vs) (a = b) :=
  (struct_sync _ (fields_cons _ (status_sync hv _ _) (fields_one _ (dec_sync _ _)))).mono fun h => by
      cases a; cases b; obtain ⟨rfl, rfl⟩ := h; rfl

end Bt
