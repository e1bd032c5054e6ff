import Verif.Lemmas.FlagNames
import Verif.Props.Flags
import Verif.Props.Returns

/-! # C55, C56, C57: flags mean what the standard says -/

namespace Bt

open Spec

/-! ## C55 -/

/-- **C55.** In every configuration `LinkLayerFeature` offers exactly the features of that version, each at
the position the standard gives it. -/
theorem C55_link_layer_features (c : Cfg) (nm : String) (k : Nat) :
    Offers c linkLayerFeature nm k ↔ linkLayerNames[k]? = some nm ∧ LeFeatureBit c k :=
  offers_of_check (P := LeFeatureBit) (by rintro c j (h | ⟨-, h⟩ | ⟨-, h⟩) <;> omega)
    (by decide +kernel) (by decide +kernel) c nm k

example : Offers ⟨false, false⟩ linkLayerFeature "LE_PING" 4 := by
  rw [C55_link_layer_features]; exact ⟨rfl, by decide⟩

/-- **C55.** `LmpFeatures`. -/
theorem C55_lmp_features (c : Cfg) (nm : String) (k : Nat) :
    Offers c lmpFeatures nm k ↔ lmpNames[k]? = some nm ∧ LmpFeatureBit k :=
  offers_of_check (P := fun _ => LmpFeatureBit) (fun _ _ h => h.1) (by decide +kernel) (by decide +kernel) c nm k

example (c : Cfg) : Offers c lmpFeatures "ROLE_SWITCH" 5 := by
  rw [C55_lmp_features]; exact ⟨rfl, by decide⟩

/-- **C55.** `LeFeatures`. -/
theorem C55_le_features (c : Cfg) (nm : String) (k : Nat) :
    Offers c leFeatures nm k ↔ leFeatureNames[k]? = some nm ∧ LeFeatureBit c k :=
  offers_of_check (P := LeFeatureBit) (by rintro c j (h | ⟨-, h⟩ | ⟨-, h⟩) <;> omega)
    (by decide +kernel) (by decide +kernel) c nm k

example : Offers ⟨true, false⟩ leFeatures "ENCRYPTION" 0 := by
  rw [C55_le_features]; exact ⟨rfl, by decide⟩

/-- **C55.** `LeStates`. -/
theorem C55_le_states (c : Cfg) (nm : String) (k : Nat) :
    Offers c leStates nm k ↔ leStateNames[k]? = some nm ∧ LeStateBit k :=
  offers_of_check (P := fun _ => LeStateBit) (fun _ j h => by unfold LeStateBit at h; omega)
    (by decide +kernel) (by decide +kernel) c nm k

example (c : Cfg) : ¬ ∃ nm, Offers c leStates nm 50 := by
  rintro ⟨nm, h⟩
  rw [C55_le_states] at h
  exact absurd h.2 (by decide)

/-- **C55.** `EventFlags`. -/
theorem C55_event_flags (c : Cfg) (nm : String) (k : Nat) :
    Offers c eventFlags nm k ↔ eventMaskNames[k]? = some nm ∧ EventMaskBit k :=
  offers_of_check (P := fun _ => EventMaskBit) (fun _ _ h => by have := h.1; omega)
    (by decide +kernel) (by decide +kernel) c nm k

example (c : Cfg) : Offers c eventFlags "HARDWARE_ERROR" 15 := by
  rw [C55_event_flags]; exact ⟨rfl, by decide⟩

/-- **C55.** `LeEventFlags`. -/
theorem C55_le_event_flags (c : Cfg) (nm : String) (k : Nat) :
    Offers c leEventFlags nm k ↔ leEventMaskNames[k]? = some nm ∧ LeEventMaskBit c k :=
  offers_of_check (P := LeEventMaskBit) (by rintro c j (h | ⟨-, h⟩ | ⟨-, h⟩) <;> omega)
    (by decide +kernel) (by decide +kernel) c nm k

example : Offers ⟨false, true⟩ leEventFlags "PHY_UPDATE_COMPLETE" 11 ∧
    ¬ Offers ⟨true, false⟩ leEventFlags "PHY_UPDATE_COMPLETE" 11 := by
  rw [C55_le_event_flags, C55_le_event_flags]
  exact ⟨⟨rfl, by decide⟩, fun h => absurd h.2 (by decide)⟩

/-- **C55.** `Channels`. -/
theorem C55_advertising_channels (c : Cfg) (nm : String) (k : Nat) :
    Offers c channels nm k ↔ advertisingChannelNames[k]? = some nm ∧ AdvertisingChannelBit k :=
  offers_of_check (P := fun _ => AdvertisingChannelBit)
    (fun _ j h => by unfold AdvertisingChannelBit at h; omega) (by decide +kernel) (by decide +kernel) c nm k

example (c : Cfg) : Offers c channels "CH_38" 1 := by
  rw [C55_advertising_channels]; exact ⟨rfl, by decide⟩

/-- **C55.** The default set of advertising channels is all of them. -/
theorem C55_default_channels (c : Cfg) (k : Nat) :
    (channelsDefault c).toNat.testBit k = true ↔ AdvertisingChannelBit k := by
  have h : ∀ c ∈ ([⟨false, false⟩, ⟨true, false⟩, ⟨false, true⟩, ⟨true, true⟩] : List Cfg),
      channelsDefault c = 7 := by decide +kernel
  rw [cfg_all h c, show (7 : UInt8).toNat = 2 ^ 3 - 1 from rfl, Nat.testBit_two_pow_sub_one, decide_eq_true_iff]
  rfl

example (c : Cfg) : (channelsDefault c).toNat.testBit 2 = true ∧ ¬ (channelsDefault c).toNat.testBit 3 = true := by
  rw [C55_default_channels, C55_default_channels]
  decide

/-- **C55.** `CommandFlags`. -/
theorem C55_commands (c : Cfg) (nm : String) (i j : Nat) :
    OffersAt c commandFlags nm i j ↔ (commandNames[i]? >>= (·[j]?)) = some nm ∧ CommandBit c i j :=
  offersAt_of_check (P := CommandBit) (name := fun i j => commandNames[i]? >>= (·[j]?))
    declared_commandFlags (by decide +kernel) c nm i j

example : OffersAt ⟨true, false⟩ commandFlags "LE_RAND" 27 7 := by
  rw [C55_commands]; exact ⟨rfl, by decide⟩

/-- **C55.** `ChannelClassification`: channel `n` is bit `n % 8` of octet `n / 8`. -/
theorem C55_data_channels (c : Cfg) (nm : String) (i j : Nat) :
    OffersAt c channelClassification nm i j ↔ "CH_" ++ toString (8 * i + j) = nm ∧ ChannelBit i j := by
  rw [offersAt_of_check (P := fun _ => ChannelBit) (name := fun i j => some ("CH_" ++ toString (8 * i + j)))
    declared_channelClassification (by decide +kernel) c nm i j]
  simp

example : Offers ⟨false, true⟩ leEventFlags "PHY_UPDATE_COMPLETE" 11 := by
  rw [C55_le_event_flags]; exact ⟨rfl, by decide⟩

example : ¬ Offers ⟨true, false⟩ leEventFlags "PHY_UPDATE_COMPLETE" 11 := by
  rw [C55_le_event_flags]; rintro ⟨-, h⟩; exact absurd h (by decide)

example : OffersAt ⟨true, false⟩ commandFlags "LE_RAND" 27 7 := by
  rw [C55_commands]; exact ⟨rfl, by decide⟩

example (c : Cfg) : OffersAt c channelClassification "CH_36" 4 4 := by
  rw [C55_data_channels]; exact ⟨by decide +kernel, by decide⟩

/-! ## C56 -/

section
variable (c : Cfg) (V : Vendor)

/-- **C56.** For every event the decoder can produce, the event mask type offers the flag of that event, and
whatever mask is sent with Set Event Mask, the bit on the wire that the standard assigns to the received event
code is set exactly if the mask contains that flag. -/
theorem C56_event_mask {σ E VS : Type} (code : UInt8) (ps : List UInt8) (e : V.Ev) (nm : String)
    (h : Event.new c V (frame code ps) = .ok e) (hn : eventFlagName e = some nm)
    (l : Link) (k : Controller σ E) (vinto : VS → UInt8) (s : σ) :
    ∃ d ∈ eventFlags, d.gate.on c = true ∧ d.name = nm ∧
      ∀ mask : UInt64, ∃ header params,
        ((Command.setEventMask (VS := VS) mask).exec (linkHeader l) (recording k) vinto (s, [])).2.2 =
          [.write header params] ∧
        (HasBit params ((code.toNat - 1) / 8) ((code.toNat - 1) % 8) ↔ mask &&& d.mask ≠ 0) := by
  have ho : code.toNat - 1 < 64 ∧ Offers c eventFlags nm (code.toNat - 1) := by
    rw [C55_event_flags]
    obtain ⟨code', ps', hf, -, hs⟩ := (C09_sound_and_complete c V _ _).mp h
    obtain ⟨rfl, -⟩ := frame_inj hf
    cases hs <;> simp only [eventFlagName, Option.some.injEq, reduceCtorEq] at hn <;> subst hn <;>
      exact ⟨by decide, by decide +kernel, by decide⟩
  obtain ⟨hlt, d, hd, hg, hn, hm⟩ := ho
  refine ⟨d, hd, hg, hn, fun mask => ?_⟩
  refine ⟨_, _, C39_trace c l k vinto (.setEventMask mask) trivial rfl s [], ?_⟩
  rw [u64_and_pow hm]
  exact hasBit_le64 mask _ hlt

example : Event.new ⟨false, false⟩ demoVendor (frame 0x05 [0x00, 0x01, 0x00, 0x13]) =
      .ok (.disconnectionComplete ⟨.success, ⟨1⟩, .remoteTerminationByUser⟩) ∧
    eventFlagName (.disconnectionComplete ⟨.success, ⟨1⟩, .remoteTerminationByUser⟩ : demoVendor.Ev) =
      some "DISCONNECTION_COMPLETE" := ⟨rfl, rfl⟩

/-- The same for LE events, apart from the configuration. -/
theorem le_event_mask (code : UInt8) (ps : List UInt8) (e : V.Ev) (nm : String)
    (h : Event.new c V (frame code ps) = .ok e) (hn : leEventFlagName e = some nm) (hv : LeEventInVersion c e) :
    code = 0x3E ∧ ∃ sub rest, ps = sub :: rest ∧ sub.toNat - 1 < 64 ∧
      Offers c leEventFlags nm (sub.toNat - 1) := by
  obtain ⟨code', ps', hf, -, hs⟩ := (C09_sound_and_complete c V _ _).mp h
  obtain ⟨rfl, hps⟩ := frame_inj hf
  cases hs <;> simp only [leEventFlagName, Option.some.injEq, reduceCtorEq] at hn <;> subst hn <;>
    refine ⟨rfl, _, _, hps, by decide, ?_⟩ <;> rw [C55_le_event_flags]
  · exact ⟨rfl, .inl (by decide)⟩
  · exact ⟨rfl, .inl (by decide)⟩
  · exact ⟨rfl, .inl (by decide)⟩
  · exact ⟨rfl, .inl (by decide)⟩
  · exact ⟨rfl, .inl (by decide)⟩
  · exact ⟨rfl, .inr (.inl ⟨hv, by decide⟩)⟩
  · exact ⟨rfl, .inr (.inr ⟨hv, by decide⟩)⟩

/-- **C56, partial.** The same for LE events and LE Set Event Mask, for the LE events of the version the crate
is compiled for. Missing: LE Data Length Change before 4.2 and LE PHY Update Complete before 5.0. -/
theorem C56_le_event_mask_partial {σ E VS : Type} (code : UInt8) (ps : List UInt8) (e : V.Ev) (nm : String)
    (h : Event.new c V (frame code ps) = .ok e) (hn : leEventFlagName e = some nm) (hv : LeEventInVersion c e)
    (l : Link) (k : Controller σ E) (vinto : VS → UInt8) (s : σ) :
    ∃ sub rest, code = 0x3E ∧ ps = sub :: rest ∧
    ∃ d ∈ leEventFlags, d.gate.on c = true ∧ d.name = nm ∧
      ∀ mask : UInt64, ∃ header params,
        ((Command.leSetEventMask (VS := VS) mask).exec (linkHeader l) (recording k) vinto (s, [])).2.2 =
          [.write header params] ∧
        (HasBit params ((sub.toNat - 1) / 8) ((sub.toNat - 1) % 8) ↔ mask &&& d.mask ≠ 0) := by
  obtain ⟨hc, sub, rest, hp, hlt, d, hd, hg, hn, hm⟩ := le_event_mask c V code ps e nm h hn hv
  refine ⟨sub, rest, hc, hp, d, hd, hg, hn, fun mask => ?_⟩
  refine ⟨_, _, C39_trace c l k vinto (.leSetEventMask mask) trivial rfl s [], ?_⟩
  rw [u64_and_pow hm]
  exact hasBit_le64 mask _ hlt

example : Event.new ⟨true, false⟩ demoVendor
      (frame 0x3E (0x07 :: le16 1 ++ le16 27 ++ le16 328 ++ le16 27 ++ le16 328)) =
      .ok (.leDataLengthChangeEvent ⟨⟨1⟩, 27, 328, 27, 328⟩) ∧
    LeEventInVersion ⟨true, false⟩ (.leDataLengthChangeEvent ⟨⟨1⟩, 27, 328, 27, 328⟩ : demoVendor.Ev) :=
  ⟨rfl, .inl rfl⟩

/-- **C56 fails as stated.** Without the version features the decoder still produces LE PHY Update Complete
and LE Data Length Change, but there is no flag to ask for them. -/
theorem C56_missing_flags :
    (c.v50 = false → (∃ e, Event.new c V (frame 0x3E [0x0C, 0, 1, 0, 0, 1]) = .ok e ∧
        leEventFlagName e = some "PHY_UPDATE_COMPLETE") ∧
      ∀ k, ¬ Offers c leEventFlags "PHY_UPDATE_COMPLETE" k) ∧
    (c.v42 = false → c.v50 = false →
      (∃ e, Event.new c V (frame 0x3E (0x07 :: le16 1 ++ le16 27 ++ le16 328 ++ le16 27 ++ le16 328)) = .ok e ∧
        leEventFlagName e = some "DATA_LENGTH_CHANGE") ∧
      ∀ k, ¬ Offers c leEventFlags "DATA_LENGTH_CHANGE" k) := by
  constructor
  · intro hc
    refine ⟨⟨_, (C09_sound_and_complete c V _ _).mpr ⟨_, _, rfl, by decide,
      .lePhyUpdateComplete (st := 0) (h := 1) (tx := .le1M) (rx := .le2M) (status_zero c V)⟩, rfl⟩, ?_⟩
    intro k hk
    rw [C55_le_event_flags] at hk
    obtain ⟨hn, hb⟩ := hk
    have hk : k = 11 := by
      have key : ∀ k ∈ List.range 20, leEventMaskNames[k]? = some "PHY_UPDATE_COMPLETE" → k = 11 := by
        decide +kernel
      refine key k (List.mem_range.mpr ?_) hn
      rcases hb with h | ⟨-, h⟩ | ⟨-, h⟩ <;> omega
    subst hk
    rcases hb with h | ⟨-, h⟩ | ⟨h, -⟩
    · omega
    · omega
    · rw [From50, hc] at h; cases h
  · intro h42 h50
    refine ⟨⟨_, (C09_sound_and_complete c V _ _).mpr ⟨_, _, rfl, by decide,
      .leDataLengthChangeEvent⟩, rfl⟩, ?_⟩
    intro k hk
    rw [C55_le_event_flags] at hk
    obtain ⟨hn, hb⟩ := hk
    have hk : k = 6 := by
      have key : ∀ k ∈ List.range 20, leEventMaskNames[k]? = some "DATA_LENGTH_CHANGE" → k = 6 := by
        decide +kernel
      refine key k (List.mem_range.mpr ?_) hn
      rcases hb with h | ⟨-, h⟩ | ⟨-, h⟩ <;> omega
    subst hk
    rcases hb with h | ⟨h, -⟩ | ⟨h, -⟩
    · omega
    · rcases h with h | h
      · rw [h42] at h; cases h
      · rw [h50] at h; cases h
    · rw [From50, h50] at h; cases h

end

example : Event.new ⟨false, false⟩ demoVendor (frame 0x05 [0x00, 0x01, 0x00, 0x13]) =
      .ok (.disconnectionComplete ⟨.success, ⟨1⟩, .remoteTerminationByUser⟩) ∧
    eventFlagName (.disconnectionComplete ⟨.success, ⟨1⟩, .remoteTerminationByUser⟩ : demoVendor.Ev) =
      some "DISCONNECTION_COMPLETE" := ⟨rfl, rfl⟩

example : Event.new ⟨true, false⟩ demoVendor
      (frame 0x3E (0x07 :: le16 1 ++ le16 27 ++ le16 328 ++ le16 27 ++ le16 328)) =
      .ok (.leDataLengthChangeEvent ⟨⟨1⟩, 27, 328, 27, 328⟩) ∧
    LeEventInVersion ⟨true, false⟩ (.leDataLengthChangeEvent ⟨⟨1⟩, 27, 328, 27, 328⟩ : demoVendor.Ev) :=
  ⟨rfl, .inl rfl⟩

/-! ## C57 -/

/-- **C57.** From the decoded reply to Read Local Supported Commands the application learns about every
command of the API exactly what the controller said: the crate has a flag for the command, and `is_set` of
that flag is the bit that the standard assigns to the command. -/
theorem C57_support {VS ε : Type} (c : Cfg) (V : Vendor) (k st : UInt8) (ps : List UInt8) (n : UInt8)
    (s : Status V.VStatus) (f : CommandFlags)
    (h : Event.new c V (frame 0x0E (k :: le16 (op 0x04 0x02) ++ st :: ps)) =
      .ok (.commandComplete ⟨n, .readLocalSupportedCommands ⟨s, f⟩⟩))
    (cmd : Command VS) (nm : String) (i j : Nat) (hc : supportFlag cmd = some (nm, i, j)) :
    ∃ d ∈ commandFlags, d.gate.on c = true ∧ d.name = nm ∧
      ∃ r, f.isSet (ε := ε) d.flag = .ok r ∧ (r = true ↔ HasBit ps i j) := by
  have ho : OffersAt c commandFlags nm i j := by
    rw [C55_commands]
    cases cmd <;> simp only [supportFlag, Option.some.injEq, Prod.mk.injEq, reduceCtorEq] at hc <;>
      obtain ⟨rfl, rfl, rfl⟩ := hc <;> exact ⟨by decide +kernel, .inl (by decide +kernel)⟩
  obtain ⟨d, hd, hg, hn, hi, hm⟩ := ho
  have hlt : d.octet < COMMAND_FLAGS_SIZE := C50_tables_in_range.2 d hd
  refine ⟨d, hd, hg, hn, ?_⟩
  obtain ⟨r, hr, hr'⟩ := (C50_compare (ε := ε) f f d.flag hlt).2.2.2.1
  refine ⟨r, hr, ?_⟩
  have hf : ps = f.bits := by
    obtain ⟨code', ps', hfr, -, hs⟩ := (C09_sound_and_complete c V _ _).mp h
    obtain ⟨rfl, hps⟩ := frame_inj hfr
    generalize hp : k :: le16 (op 0x04 0x02) ++ st :: ps = p at hs hps
    subst hps
    cases hs with
    | commandComplete hret =>
      obtain ⟨rfl, ho, hps⟩ := cons_le16_inj hp
      generalize hrr : ReturnParameters.readLocalSupportedCommands ⟨s, f⟩ = rr at hret
      cases hret with
      | statusOnly hm _ =>
        exfalso
        subst ho
        revert hm
        cases h50 : c.v50 <;> simp [statusReplies, op]
      | readLocalSupportedCommands _ _ =>
        cases hrr
        exact (List.cons.inj hps).2
      | _ => cases hrr
  rw [hr', hf]
  constructor
  · rintro ⟨i', j', ⟨h1, h2⟩, h3⟩
    obtain rfl := (testBit_two_pow_iff hm).mp h2
    rw [← hi]
    rw [h1] at h3
    exact h3
  · intro h
    exact ⟨i, j, ⟨hi.symm, (testBit_two_pow_iff hm).mpr rfl⟩, h⟩

/-- A controller that supports Disconnect only. -/
def onlyDisconnect : CommandFlags := ⟨⟨0x20 :: zeroes 63, rfl⟩⟩

example : Event.new ⟨false, false⟩ demoVendor
      (frame 0x0E (1 :: le16 (op 0x04 0x02) ++ 0 :: (0x20 :: zeroes 63))) =
      .ok (.commandComplete ⟨1, .readLocalSupportedCommands ⟨.success, onlyDisconnect⟩⟩) ∧
    supportFlag (.leRand : Command Empty) = some ("LE_RAND", 27, 7) := by
  refine ⟨(C25_supported_commands 1 0 (status_zero _ _) onlyDisconnect.arr).1 ?_, rfl⟩
  rintro i j ⟨b, h1, h2⟩
  have h : i = 0 ∧ j = 5 := by
    match i, h1 with
    | 0, h1 =>
      obtain rfl := Option.some.inj h1
      exact ⟨rfl, (testBit_two_pow_iff (m := 0x20) (k := 5) rfl).mp h2⟩
    | i + 1, h1 => exact absurd ⟨b, h1, h2⟩ (not_hasBit_zeroes 63 i j)
  rw [h.1, h.2]
  decide

end Bt
