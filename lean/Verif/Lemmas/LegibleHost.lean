import Verif.Model.DebugHost
import Verif.Lemmas.LegibleResults

/-! # Helper lemmas: the texts of parameters and errors of commands can be read off -/

namespace Bt

open Spec

/-! ## Names -/

theorem advertisingType_sync (a b : AdvertisingType) : Sync a.debug b.debug (a = b) := by
  have w : ∀ a : AdvertisingType, ∀ x ∈ a.debug, wordChar x = true := by intro a; cases a <;> decide
  exact word_sync (w a) (w b) (by cases a <;> cases b <;> first | exact fun _ => rfl | exact fun h => absurd h (by decide))

theorem ownAddressType_sync (a b : OwnAddressType) : Sync a.debug b.debug (a = b) := by
  have w : ∀ a : OwnAddressType, ∀ x ∈ a.debug, wordChar x = true := by intro a; cases a <;> decide
  exact word_sync (w a) (w b) (by cases a <;> cases b <;> first | exact fun _ => rfl | exact fun h => absurd h (by decide))

theorem advertisingFilterPolicy_sync (a b : AdvertisingFilterPolicy) : Sync a.debug b.debug (a = b) := by
  have w : ∀ a : AdvertisingFilterPolicy, ∀ x ∈ a.debug, wordChar x = true := by intro a; cases a <;> decide
  exact word_sync (w a) (w b) (by cases a <;> cases b <;> first | exact fun _ => rfl | exact fun h => absurd h (by decide))

theorem scanType_sync (a b : ScanType) : Sync a.debug b.debug (a = b) := by
  have w : ∀ a : ScanType, ∀ x ∈ a.debug, wordChar x = true := by intro a; cases a <;> decide
  exact word_sync (w a) (w b) (by cases a <;> cases b <;> first | exact fun _ => rfl | exact fun h => absurd h (by decide))

theorem scanFilterPolicy_sync (a b : ScanFilterPolicy) : Sync a.debug b.debug (a = b) := by
  have w : ∀ a : ScanFilterPolicy, ∀ x ∈ a.debug, wordChar x = true := by intro a; cases a <;> decide
  exact word_sync (w a) (w b) (by cases a <;> cases b <;> first | exact fun _ => rfl | exact fun h => absurd h (by decide))

theorem connectionFilterPolicy_sync (a b : ConnectionFilterPolicy) : Sync a.debug b.debug (a = b) := by
  have w : ∀ a : ConnectionFilterPolicy, ∀ x ∈ a.debug, wordChar x = true := by intro a; cases a <;> decide
  exact word_sync (w a) (w b) (by cases a <;> cases b <;> first | exact fun _ => rfl | exact fun h => absurd h (by decide))

theorem txPowerLevel_sync (a b : TxPowerLevel) : Sync a.debug b.debug (a = b) := by
  have w : ∀ a : TxPowerLevel, ∀ x ∈ a.debug, wordChar x = true := by intro a; cases a <;> decide
  exact word_sync (w a) (w b) (by cases a <;> cases b <;> first | exact fun _ => rfl | exact fun h => absurd h (by decide))

theorem testPacketPayload_sync (a b : TestPacketPayload) : Sync a.debug b.debug (a = b) := by
  have w : ∀ a : TestPacketPayload, ∀ x ∈ a.debug, wordChar x = true := by intro a; cases a <;> decide
  exact word_sync (w a) (w b) (by cases a <;> cases b <;> first | exact fun _ => rfl | exact fun h => absurd h (by decide))

/-- All types of advertising data. -/
def commonDataTypes : List CommonDataType :=
  [.flags,
   .incompleteListOf16BitServiceClassUuids,
   .completeListOf16BitServiceClassUuids,
   .incompleteListOf32BitServiceClassUuids,
   .completeListOf32BitServiceClassUuids,
   .incompleteListOf128BitServiceClassUuids,
   .completeListOf128BitServiceClassUuids,
   .shortenedLocalName,
   .completeLocalName,
   .txPowerLevel,
   .classOfDevice,
   .simplePairingHashC192,
   .simplePairingRandomizerR192,
   .deviceId,
   .securityManagerTkValue,
   .peripheralConnectionIntervalRange,
   .listOf16BitServiceSolicitationUuids,
   .listOf128BitServiceSolicitationUuids,
   .serviceData16BitUuid,
   .publicTargetAddress,
   .randomTargetAddress,
   .appearance,
   .advertisingInterval,
   .leBluetoothDeviceAddress,
   .leRole,
   .simplePairingHashC256,
   .simplePairingRandomizerR256,
   .listOf32BitServiceSolicitationUuids,
   .serviceData32BitUuid,
   .serviceData128BitUuid,
   .leSecureConnectionsConfirmationValue,
   .leSecureConnectionsRandomValue,
   .uri,
   .indoorPositioning,
   .transportDiscoveryData,
   .leSupportedFeatures,
   .channelMapUpdateIndication,
   .pbAdv,
   .meshMessage,
   .meshBeacon,
   .bigInfo,
   .broadcastCode,
   .resolvableSetIdentifier,
   .advertisingIntervalLong,
   .broadcastName,
   .threeDInformationData,
   .manufacturerSpecificData]

theorem commonDataTypes_mem (a : CommonDataType) : a ∈ commonDataTypes := by cases a <;> decide

theorem commonDataTypes_names : ∀ a ∈ commonDataTypes, ∀ b ∈ commonDataTypes, a.debug = b.debug → a = b := by
  decide +kernel

theorem commonDataTypes_word : ∀ a ∈ commonDataTypes, ∀ x ∈ a.debug, wordChar x = true := by decide +kernel

theorem commonDataType_sync [Style] (a b : CommonDataType) : Sync a.debug b.debug (a = b) :=
  word_sync (commonDataTypes_word a (commonDataTypes_mem a)) (commonDataTypes_word b (commonDataTypes_mem b))
    (commonDataTypes_names a (commonDataTypes_mem a) b (commonDataTypes_mem b))

/-! ## Parameters -/

theorem range_sync [Style] (a b a' b' : Duration) : Sync (fmtRange a b) (fmtRange a' b') (a = a' ∧ b = b') :=
  tuple_sync _ (items_two (duration_sync _ _) (duration_sync _ _))

theorem peerAddrType_sync [Style] (a b : PeerAddrType) : Sync a.debug b.debug (a = b) := by
  cases a <;> cases b <;> simp only [PeerAddrType.debug] <;>
    refine variant_name (by decide) (by decide) fun e => ?_ <;>
    first
    | exact absurd e (by decide)
    | exact (variant_one _ (bdAddr_sync _ _)).mono fun h => by rw [h]

theorem advertisingInterval_sync [Style] (a b : AdvertisingInterval) : Sync a.debug b.debug (a = b) :=
  (struct_sync _ (fields_cons _ (range_sync _ _ _ _) (fields_one _ (advertisingType_sync _ _)))).mono fun h => by
      cases a; cases b; obtain ⟨⟨rfl, rfl⟩, rfl⟩ := h; rfl

theorem scanWindow_sync [Style] (a b : ScanWindow) : Sync a.debug b.debug (a = b) :=
  (struct_sync _ (fields_cons _ (duration_sync _ _) (fields_one _ (duration_sync _ _)))).mono fun h => by
      cases a; cases b; obtain ⟨rfl, rfl⟩ := h; rfl

theorem connectionInterval_sync [Style] (a b : ConnectionInterval) : Sync a.debug b.debug (a = b) :=
  (struct_sync _ (fields_cons _ (range_sync _ _ _ _) (fields_cons _ (dec16_sync _ _) (fields_one _ (duration_sync _ _))))).mono fun h => by
      cases a; cases b; obtain ⟨⟨rfl, rfl⟩, rfl, rfl⟩ := h; rfl

theorem expectedLength_sync [Style] (a b : ExpectedConnectionLength) : Sync a.debug b.debug (a = b) :=
  (struct_sync _ (fields_one _ (range_sync _ _ _ _))).mono fun h => by
      cases a; cases b; obtain ⟨rfl, rfl⟩ := h; rfl

theorem scanParameters_sync [Style] (a b : ScanParameters) : Sync a.debug b.debug (a = b) :=
  (struct_sync _ (fields_cons _ (scanType_sync _ _) (fields_cons _ (scanWindow_sync _ _) (fields_cons _ (ownAddressType_sync _ _) (fields_one _ (scanFilterPolicy_sync _ _)))))).mono fun h => by
      cases a; cases b; obtain ⟨rfl, rfl, rfl, rfl⟩ := h; rfl

theorem connectionParameters_sync [Style] (a b : ConnectionParameters) : Sync a.debug b.debug (a = b) :=
  (struct_sync _ (fields_cons _ (scanWindow_sync _ _) (fields_cons _ (connectionFilterPolicy_sync _ _) (fields_cons _ (peerAddrType_sync _ _) (fields_cons _ (ownAddressType_sync _ _) (fields_cons _ (connectionInterval_sync _ _) (fields_one _ (expectedLength_sync _ _)))))))).mono fun h => by
      cases a; cases b; obtain ⟨rfl, rfl, rfl, rfl, rfl, rfl⟩ := h; rfl

theorem channels_sound : SoundTable channels := by unfold SoundTable; decide +kernel
theorem eventFlags_sound : SoundTable eventFlags := by unfold SoundTable; decide +kernel
theorem leEventFlags_sound : SoundTable leEventFlags := by unfold SoundTable; decide +kernel

/-- A channel map has the bits 0, 1 and 2. -/
theorem channels_declared (c : Cfg) {m : UInt8} (h : m.toNat < 8) (j : Nat) (hj : m.toUInt64.toNat.testBit j = true) :
    Declared64 c channels j := by
  have h3 : j < 3 := by
    by_contra hn
    rw [Nat.testBit_lt_two_pow] at hj
    · cases hj
    · have : 2 ^ 3 ≤ 2 ^ j := Nat.pow_le_pow_right (by decide) (by omega)
      simp only [UInt8.toNat_toUInt64]
      omega
  have all : ∀ c : Cfg, ∀ j < 3, Declared64 c channels j := by
    rintro ⟨a, b⟩; cases a <;> cases b <;> decide
  exact all c j h3

theorem channelMap_sync [Style] (c : Cfg) {a b : UInt8} (ha : a.toNat < 8) (hb : b.toNat < 8) :
    Sync (fmtFlags c channels a.toUInt64) (fmtFlags c channels b.toUInt64) (a = b) :=
  (flags_sync channels_sound (channels_declared c ha) (channels_declared c hb)).mono fun h => by
    have := congrArg UInt64.toNat h
    simpa only [UInt8.toNat_toUInt64, UInt8.toNat_inj] using this

theorem advertisingParameters_sync [Style] (c : Cfg) (a b : AdvertisingParameters) (ha : a.advertisingChannelMap.toNat < 8)
    (hb : b.advertisingChannelMap.toNat < 8) : Sync (a.debug c) (b.debug c) (a = b) := by
  have key (t u : Text) (h : Sync t u (a.advertisingChannelMap = b.advertisingChannelMap)) :
      Sync (fmtStruct "AdvertisingParameters" [("advertising_interval", a.advertisingInterval.debug),
          ("own_address_type", a.ownAddressType.debug), ("peer_address", a.peerAddress.debugIn),
          ("advertising_channel_map", t), ("advertising_filter_policy", a.advertisingFilterPolicy.debug)])
        (fmtStruct "AdvertisingParameters" [("advertising_interval", b.advertisingInterval.debug),
          ("own_address_type", b.ownAddressType.debug), ("peer_address", b.peerAddress.debugIn),
          ("advertising_channel_map", u), ("advertising_filter_policy", b.advertisingFilterPolicy.debug)]) (a = b) :=
    (struct_sync _ (fields_cons _ (advertisingInterval_sync _ _) (fields_cons _ (ownAddressType_sync _ _)
      (fields_cons _ (addrType_sync _ _) (fields_cons _ h (fields_one _ (advertisingFilterPolicy_sync _ _))))))).mono
      fun ⟨h1, h2, h3, h4, h5⟩ => by cases a; cases b; cases h1; cases h2; cases h3; cases h4; cases h5; rfl
  exact key _ _ (channelMap_sync c ha hb)

/-! ## Errors -/

theorem advIntervalError_sync [Style] (a b : AdvertisingIntervalError) : Sync a.debug b.debug (a = b) := by
  cases a <;> cases b <;> simp only [AdvertisingIntervalError.debug] <;>
    refine variant_name (by decide) (by decide) fun e => ?_ <;>
    first
    | exact absurd e (by decide)
    | exact variant_unit _ True.intro
    | exact (variant_one _ (duration_sync _ _)).mono fun h => by rw [h]
    | exact (variant_two _ (duration_sync _ _) (duration_sync _ _)).mono fun h => by rw [h.1, h.2]

theorem lengthError_sync [Style] (a b : ExpectedConnectionLengthError) : Sync a.debug b.debug (a = b) := by
  cases a <;> cases b <;> simp only [ExpectedConnectionLengthError.debug] <;>
    refine variant_name (by decide) (by decide) fun e => ?_ <;>
    first
    | exact absurd e (by decide)
    | exact (variant_one _ (duration_sync _ _)).mono fun h => by rw [h]
    | exact (variant_two _ (duration_sync _ _) (duration_sync _ _)).mono fun h => by rw [h.1, h.2]

/-- A struct and a tuple variant with different names are told apart. -/
theorem struct_variant [Style] {n m : String} (hn : ∀ x ∈ n.toList, wordChar x = true)
    (hm : ∀ x ∈ m.toList, wordChar x = true) (h : n ≠ m) (fs : List (String × Text)) (t : Text) (r s : Text) :
    fmtStruct n fs ++ r ≠ fmtVariant m [t] ++ s := by
  intro e
  obtain ⟨v, hv⟩ := struct_form n fs
  obtain ⟨w, hw⟩ := tuple_form m [t]
  rw [fmtVariant, hv, hw] at e
  simp only [List.append_assoc, List.cons_append] at e
  exact h (String.toList_inj.mp (span_eq hn hm (by simp; decide) (by simp; decide) e).1)

theorem scanWindowError_sync [Style] (a b : ScanWindowError) : Sync a.debug b.debug (a = b) := by
  have one (n : String) (f : Duration → ScanWindowError) (d d' : Duration) :
      Sync (fmtVariant n [d.debug]) (fmtVariant n [d'.debug]) (f d = f d') :=
    (variant_one n (duration_sync d d')).mono fun h => by rw [h]
  have clash (n m : String) (hn : ∀ x ∈ n.toList, wordChar x = true) (hm : ∀ x ∈ m.toList, wordChar x = true)
      (h : n ≠ m) (t u : Text) (P : Prop) : Sync (fmtVariant n [t]) (fmtVariant m [u]) P :=
    variant_name hn hm fun e => absurd e h
  have left (m : String) (hm : ∀ x ∈ m.toList, wordChar x = true) (h : "Inverted" ≠ m)
      (fs : List (String × Text)) (t : Text) (P : Prop) : Sync (fmtStruct "Inverted" fs) (fmtVariant m [t]) P :=
    fun r s _ _ e => absurd e (struct_variant (by decide) hm h fs t r s)
  have right (m : String) (hm : ∀ x ∈ m.toList, wordChar x = true) (h : "Inverted" ≠ m)
      (fs : List (String × Text)) (t : Text) (P : Prop) : Sync (fmtVariant m [t]) (fmtStruct "Inverted" fs) P :=
    fun r s _ _ e => absurd e.symm (struct_variant (by decide) hm h fs t s r)
  rcases a with d | d | ⟨d, e⟩ <;> rcases b with d' | d' | ⟨d', e'⟩ <;> unfold ScanWindowError.debug
  · exact one _ .tooShort d d'
  · exact clash _ _ (by decide) (by decide) (by decide) _ _ _
  · exact right _ (by decide) (by decide) _ _ _
  · exact clash _ _ (by decide) (by decide) (by decide) _ _ _
  · exact one _ .tooLong d d'
  · exact right _ (by decide) (by decide) _ _ _
  · exact left _ (by decide) (by decide) _ _ _
  · exact left _ (by decide) (by decide) _ _ _
  · exact (struct_sync _ (fields_cons _ (duration_sync d d') (fields_one _ (duration_sync e e')))).mono fun h => by
      rw [h.1, h.2]

/-- An error whose channel map, if it has one, has only the bits 0, 1 and 2. -/
def HostError.MapKnown {E VS : Type} : HostError E VS → Prop
  | .badChannelMap m => m.toNat < 8
  | _ => True

theorem hostError_sync [Style] {E VS : Type} (c : Cfg) {ee : E → Text} {vs : VS → Text} (he : Legible ee) (hv : Legible vs)
    (a b : HostError E VS) (ha : a.MapKnown) (hb : b.MapKnown) :
    Sync (a.debug c ee vs) (b.debug c ee vs) (a = b) := by
  have clash {n m : String} (hn : ∀ x ∈ n.toList, wordChar x = true) (hm : ∀ x ∈ m.toList, wordChar x = true)
      (h : n ≠ m) {ts us : List Text} {P : Prop} : Sync (fmtVariant n ts) (fmtVariant m us) P :=
    variant_name hn hm fun e => absurd e h
  cases a <;> cases b <;> simp only [HostError.debug]
  case badDisconnectionReason.badDisconnectionReason a b =>
    exact (variant_one _ (status_sync hv a b)).mono fun h => by rw [h]
  case badRandomAddress.badRandomAddress a b => exact (variant_one _ (bdAddr_sync a b)).mono fun h => by rw [h]
  case badChannelMap.badChannelMap => exact (variant_one _ (channelMap_sync c ha hb)).mono fun h => by rw [h]
  case advertisingDataTooLong.advertisingDataTooLong a b => exact (variant_one _ (dec_sync a b)).mono fun h => by rw [h]
  case badConnectionLengthRange.badConnectionLengthRange a b a' b' =>
    exact (variant_two _ (duration_sync a a') (duration_sync b b')).mono fun h => by rw [h.1, h.2]
  case noValidChannel.noValidChannel => exact variant_unit _ True.intro
  case invalidTestChannel.invalidTestChannel a b => exact (variant_one _ (dec8_sync a b)).mono fun h => by rw [h]
  case invalidTestPayloadLength.invalidTestPayloadLength a b =>
    exact (variant_one _ (dec_sync a b)).mono fun h => by rw [h]
  case comm.comm a b => exact (variant_one _ (Sync.of_legible he a b)).mono fun h => by rw [h]
  all_goals exact clash (by decide) (by decide) (by decide)

theorem hostNb_sync [Style] {E VS : Type} (c : Cfg) {ee : E → Text} {vs : VS → Text} (he : Legible ee) (hv : Legible vs)
    (a b : Nb (HostError E VS)) (ha : ∀ e, a = .other e → e.MapKnown) (hb : ∀ e, b = .other e → e.MapKnown) :
    Sync (a.debug (HostError.debug c ee vs)) (b.debug (HostError.debug c ee vs)) (a = b) := by
  rcases a with _ | a <;> rcases b with _ | b
  · exact variant_unit _ rfl
  · cases b <;> simp only [Nb.debug, HostError.debug] <;>
      exact variant_name (by decide) (by decide) fun e => absurd e (by decide)
  · cases a <;> simp only [Nb.debug, HostError.debug] <;>
      exact variant_name (by decide) (by decide) fun e => absurd e (by decide)
  · exact (hostError_sync c he hv a b (ha a rfl) (hb b rfl)).mono fun e => by rw [e]

/-! ## Results -/

theorem ok_word : ∀ x ∈ "Ok".toList, wordChar x = true := by decide
theorem err_word : ∀ x ∈ "Err".toList, wordChar x = true := by decide

/-- The text of a result is that of no other result. -/
theorem fmtResult_iff [Style] {ε ε' α : Type} {f : α → Text} {g : ε → Text} (r r' : Res ε α) (n : r ≠ .panic) (n' : r' ≠ .panic)
    (hf : ∀ a b, r = .ok a → r' = .ok b → fmtVariant "Ok" [f a] = fmtVariant "Ok" [f b] → a = b)
    (hg : ∀ a b, r = .err a → r' = .err b → fmtVariant "Err" [g a] = fmtVariant "Err" [g b] → a = b) :
    ∃ t u, fmtResult (ε' := ε') f g r = .ok t ∧ fmtResult (ε' := ε') f g r' = .ok u ∧ (t = u ↔ r = r') := by
  cases r with
  | panic => exact absurd rfl n
  | ok a =>
    cases r' with
    | panic => exact absurd rfl n'
    | ok b => exact ⟨_, _, rfl, rfl, fun h => by rw [hf a b rfl rfl h], fun h => by cases h; rfl⟩
    | err b =>
      refine ⟨_, _, rfl, rfl, fun h => ?_, fun h => by cases h⟩
      exact ((variant_name (P := False) ok_word err_word fun h => absurd h (by decide)).eq h).elim
  | err a =>
    cases r' with
    | panic => exact absurd rfl n'
    | ok b =>
      refine ⟨_, _, rfl, rfl, fun h => ?_, fun h => by cases h⟩
      exact ((variant_name (P := False) err_word ok_word fun h => absurd h (by decide)).eq h).elim
    | err b => exact ⟨_, _, rfl, rfl, fun h => by rw [hg a b rfl rfl h], fun h => by cases h; rfl⟩

end Bt
