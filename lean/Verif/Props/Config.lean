import Verif.Props.Returns
import Verif.Props.Commands
import Verif.Props.Windows
import Verif.Spec.Config

/-! # C27: a later version only adds behaviour -/

namespace Bt

open Spec

variable {c c' : Cfg} {V : Vendor}

theorem from42_up (hu : Upgrade c c') (h : From42 c) : From42 c' := h.imp hu.1 hu.2

theorem commandBit_up (hu : Upgrade c c') {i j : Nat} (h : CommandBit c i j) : CommandBit c' i j := by
  rcases h with h | ⟨h, h'⟩ | ⟨h, h'⟩
  · exact .inl h
  · exact .inr (.inl ⟨from42_up hu h, h'⟩)
  · exact .inr (.inr ⟨hu.2 h, h'⟩)

theorem leFeatureBit_up (hu : Upgrade c c') {j : Nat} (h : LeFeatureBit c j) : LeFeatureBit c' j := by
  rcases h with h | ⟨h, h'⟩ | ⟨h, h'⟩
  · exact .inl h
  · exact .inr (.inl ⟨from42_up hu h, h'⟩)
  · exact .inr (.inr ⟨hu.2 h, h'⟩)

theorem status_up (hu : Upgrade c c') {b : UInt8} {s : Status V.VStatus}
    (hb : c.v50 = c'.v50 ∨ b ∉ newStatuses) (h : StatusByte c V b s) : StatusByte c' V b s := by
  have h50 := hu.2
  unfold StatusByte at h ⊢
  have hn : statusCount c = statusCount c' ∨
      (statusCount c = 0x41 ∧ statusCount c' = 0x45 ∧ b ∉ newStatuses) := by
    unfold statusCount
    cases h1 : c.v50 <;> cases h2 : c'.v50 <;> simp_all
  rcases hn with hn | ⟨h1, h2, h3⟩
  · rw [← hn]; exact h
  · rw [h1] at h
    rw [h2]
    have hlt : b.toNat < 0x41 ↔ b.toNat < 0x45 := by
      constructor
      · intro h; omega
      · intro h
        apply Nat.lt_of_not_le
        intro h'
        apply h3
        have : b.toNat = 0x41 ∨ b.toNat = 0x42 ∨ b.toNat = 0x43 ∨ b.toNat = 0x44 := by omega
        rw [← UInt8.ofNat_toNat (x := b)]
        rcases this with h | h | h | h <;> rw [h] <;> decide
    by_cases hb : b.toNat < 0x41
    · rw [if_pos hb] at h
      rw [if_pos (hlt.mp hb)]
      exact h
    · rw [if_neg hb] at h
      rw [if_neg (fun h => hb (hlt.mpr h))]
      exact h

theorem returns_up (hu : Upgrade c c') {o : UInt16} {ps : List UInt8}
    {r : ReturnParameters V.VStatus V.VRet} (h : Returns c V o ps r)
    (hc : c.v50 = c'.v50 ∨ ∀ b, KnownReply o → ps[0]? = some b → b ∉ newStatuses) :
    ∃ r', Returns c' V o ps r' ∧ ∀ n, Upgraded (V := V) c (.commandComplete ⟨n, r⟩) (.commandComplete ⟨n, r'⟩) := by
  rcases returns_opcode c V h with ⟨rfl, rfl⟩ | ⟨hk, -⟩
  · exact ⟨_, .spontaneous, fun n => .same _⟩
  have hs (b : UInt8) (s : Status V.VStatus) (hp : ps[0]? = some b) (hb : StatusByte c V b s) :
      StatusByte c' V b s := status_up hu (hc.imp_right (fun f => f b hk hp)) hb
  clear hc
  cases h with
  | spontaneous => exact ⟨_, .spontaneous, fun n => .same _⟩
  | @statusOnly _ mk st s rest hm hst =>
    have hst' := hs _ _ rfl hst
    by_cases ho : o = op 0x08 0x0A
    · subst ho
      have hm' : (op 0x08 0x0A, if c'.v50 then .leSetAdvertisingEnable else .leSetAdvertiseEnable) ∈
          statusReplies (VS := V.VStatus) (VR := V.VRet) c' := by simp [statusReplies]
      refine ⟨_, .statusOnly hm' hst', fun n => ?_⟩
      have hmk : mk = if c.v50 then .leSetAdvertisingEnable else .leSetAdvertiseEnable := by
        simp only [statusReplies, List.mem_cons, Prod.mk.injEq, List.not_mem_nil, or_false] at hm
        rcases hm with h | h | h | h | h | h | h | h | h | h | h | h | h | h | h | h | h
        all_goals first
          | exact h.2
          | exact absurd h.1 (by decide)
      subst hmk
      have := hu.2
      cases h1 : c.v50 <;> cases h2 : c'.v50
      · exact .same _
      · exact .renamed n s
      · rw [h2] at this; exact absurd (this h1) (by decide)
      · exact .same _
    · refine ⟨mk s, .statusOnly ?_ hst', fun n => .same _⟩
      simp only [statusReplies, List.mem_cons, Prod.mk.injEq, List.not_mem_nil, or_false] at hm ⊢
      rcases hm with h | h | h | h | h | h | h | h | h | h | h | h | h | h | h | h | h
      all_goals first
        | exact absurd h.1 ho
        | simp [h]
  | readLocalSupportedFeatures hst hy =>
    exact ⟨_, .readLocalSupportedFeatures (hs _ _ rfl hst) hy, fun n => .same _⟩
  | leReadLocalSupportedFeatures hst hy =>
    refine ⟨_, .leReadLocalSupportedFeatures (hs _ _ rfl hst) (leFeatures_truncate c' _),
      fun n => .leFeatures n _ _ _ (fun j => ?_)⟩
    rw [hy, leFeatures_truncate]
    exact ⟨fun h => ⟨⟨h.1, leFeatureBit_up hu h.2⟩, h.2⟩, fun h => ⟨h.1.1, h.2⟩⟩
  | readLocalSupportedCommands hst hd =>
    exact ⟨_, .readLocalSupportedCommands (hs _ _ rfl hst) (fun i j h => commandBit_up hu (hd i j h)),
      fun n => .same _⟩
  | leReadChannelMap hst hd =>
    exact ⟨_, .leReadChannelMap (hs _ _ rfl hst) hd, fun n => .same _⟩
  | leReadSupportedStates hst hd =>
    exact ⟨_, .leReadSupportedStates (hs _ _ rfl hst) hd, fun n => .same _⟩
  | readTxPowerLevel hst => exact ⟨_, .readTxPowerLevel (hs _ _ rfl hst), fun n => .same _⟩
  | readLocalVersionInformation hst =>
    exact ⟨_, .readLocalVersionInformation (hs _ _ rfl hst), fun n => .same _⟩
  | readBdAddr hst => exact ⟨_, .readBdAddr (hs _ _ rfl hst), fun n => .same _⟩
  | readRssi hst => exact ⟨_, .readRssi (hs _ _ rfl hst), fun n => .same _⟩
  | leReadBufferSize hst => exact ⟨_, .leReadBufferSize (hs _ _ rfl hst), fun n => .same _⟩
  | leReadAdvertisingChannelTxPower hst =>
    exact ⟨_, .leReadAdvertisingChannelTxPower (hs _ _ rfl hst), fun n => .same _⟩
  | leReadWhiteListSize hst => exact ⟨_, .leReadWhiteListSize (hs _ _ rfl hst), fun n => .same _⟩
  | leEncrypt hst => exact ⟨_, .leEncrypt (hs _ _ rfl hst), fun n => .same _⟩
  | leRand hst => exact ⟨_, .leRand (hs _ _ rfl hst), fun n => .same _⟩
  | leLongTermKeyRequestReply hst =>
    exact ⟨_, .leLongTermKeyRequestReply (hs _ _ rfl hst), fun n => .same _⟩
  | leLongTermKeyRequestNegativeReply hst =>
    exact ⟨_, .leLongTermKeyRequestNegativeReply (hs _ _ rfl hst), fun n => .same _⟩
  | leTestEnd hst => exact ⟨_, .leTestEnd (hs _ _ rfl hst), fun n => .same _⟩

theorem says_up (hu : Upgrade c c') {code : UInt8} {ps : List UInt8} {e : V.Ev} (h : Says c V code ps e)
    (hc : c.v50 = c'.v50 ∨ ∀ b, CarriesStatus code ps b → b ∉ newStatuses) :
    ∃ e', Says c' V code ps e' ∧ Upgraded c e e' := by
  have hs (b : UInt8) (s : Status V.VStatus) (hp : CarriesStatus code ps b) (hb : StatusByte c V b s) :
      StatusByte c' V b s := status_up hu (hc.imp_right (fun f => f b hp)) hb
  cases h with
  | connectionComplete h1 =>
    exact ⟨_, .connectionComplete (hs _ _ (.inl ⟨_, .first (by decide) rfl⟩) h1), .same _⟩
  | disconnectionComplete h1 h2 =>
    refine ⟨_, .disconnectionComplete (hs _ _ (.inl ⟨_, .first (by decide) rfl⟩) h1)
      (hs _ _ (.inr ⟨rfl, rfl⟩) h2), .same _⟩
  | encryptionChange h1 =>
    exact ⟨_, .encryptionChange (hs _ _ (.inl ⟨_, .first (by decide) rfl⟩) h1), .same _⟩
  | readRemoteVersionInformationComplete h1 =>
    exact ⟨_, .readRemoteVersionInformationComplete (hs _ _ (.inl ⟨_, .first (by decide) rfl⟩) h1), .same _⟩
  | commandComplete h1 =>
    obtain ⟨r', h2, h3⟩ := returns_up hu h1 (hc.imp_right (fun f b hk hp => f b (.inl ⟨_, .reply hk hp⟩)))
    exact ⟨_, .commandComplete h2, h3 _⟩
  | commandCompleteVendor h1 h2 => exact ⟨_, .commandCompleteVendor h1 h2, .same _⟩
  | commandStatus h1 =>
    exact ⟨_, .commandStatus (hs _ _ (.inl ⟨_, .first (by decide) rfl⟩) h1), .same _⟩
  | hardwareError => exact ⟨_, .hardwareError, .same _⟩
  | numberOfCompletedPackets h1 => exact ⟨_, .numberOfCompletedPackets h1, .same _⟩
  | dataBufferOverflow => exact ⟨_, .dataBufferOverflow, .same _⟩
  | encryptionKeyRefreshComplete h1 =>
    exact ⟨_, .encryptionKeyRefreshComplete (hs _ _ (.inl ⟨_, .first (by decide) rfl⟩) h1), .same _⟩
  | leConnectionComplete h1 h2 =>
    exact ⟨_, .leConnectionComplete (hs _ _ (.inl ⟨_, .second (by decide) rfl⟩) h1) h2, .same _⟩
  | leAdvertisingReport h1 h2 => exact ⟨_, .leAdvertisingReport h1 h2, .same _⟩
  | leConnectionUpdateComplete h1 h2 =>
    exact ⟨_, .leConnectionUpdateComplete (hs _ _ (.inl ⟨_, .second (by decide) rfl⟩) h1) h2, .same _⟩
  | leReadRemoteUsedFeaturesComplete h1 h2 =>
    exact ⟨_, .leReadRemoteUsedFeaturesComplete (hs _ _ (.inl ⟨_, .second (by decide) rfl⟩) h1)
      (fun j h => leFeatureBit_up hu (h2 j h)), .same _⟩
  | leLongTermKeyRequest => exact ⟨_, .leLongTermKeyRequest, .same _⟩
  | leDataLengthChangeEvent => exact ⟨_, .leDataLengthChangeEvent, .same _⟩
  | lePhyUpdateComplete h1 =>
    exact ⟨_, .lePhyUpdateComplete (hs _ _ (.inl ⟨_, .second (by decide) rfl⟩) h1), .same _⟩
  | vendor h1 => exact ⟨_, .vendor h1, .same _⟩

/-- **C27.** A packet accepted by one version is accepted by every later version and means the same, unless
it carries one of the status codes that 5.0 adds. -/
theorem C27_events (hu : Upgrade c c') (code : UInt8) (ps : List UInt8) (e : V.Ev)
    (hc : c.v50 = c'.v50 ∨ ∀ b, CarriesStatus code ps b → b ∉ newStatuses)
    (h : Event.new c V (frame code ps) = .ok e) :
    ∃ e', Event.new c' V (frame code ps) = .ok e' ∧ Upgraded c e e' := by
  obtain ⟨code', ps', hf, hl, hs⟩ := (C09_sound_and_complete c V _ _).mp h
  obtain ⟨rfl, rfl⟩ := frame_inj hf
  obtain ⟨e', h1, h2⟩ := says_up hu hs hc
  exact ⟨e', (C09_sound_and_complete c' V _ _).mpr ⟨_, _, rfl, hl, h1⟩, h2⟩

/-- The hypotheses: an upgrade, and a packet without a status. -/
example : Upgrade ⟨false, false⟩ ⟨true, true⟩ ∧ (∀ b, CarriesStatus 0x10 [0x2A] b → b ∉ newStatuses) ∧
    Event.new ⟨false, false⟩ demoVendor (frame 0x10 [0x2A]) = .ok (.hardwareError ⟨0x2A⟩) := by
  refine ⟨⟨by decide, by decide⟩, ?_, rfl⟩
  rintro b (⟨i, h⟩ | ⟨h, -⟩)
  · generalize hc : (0x10 : UInt8) = code at h
    cases h with
    | first hm _ => subst hc; simp at hm
    | second _ _ => exact absurd hc (by decide)
  · cases h

/-- **C27**, the exception: the status codes 0x41..0x44 are the vendor's before 5.0 and standard from 5.0. -/
theorem C27_new_statuses (hc : c.v50 = false) (hc' : c'.v50 = true) (b : UInt8) (hb : b ∈ newStatuses)
    (s s' : Status V.VStatus) (h : Status.tryFrom c V.statusTryFrom b = .ok s)
    (h' : Status.tryFrom c' V.statusTryFrom b = .ok s') :
    (∃ v, s = .vendor v) ∧ (∀ v, s' ≠ .vendor v) := by
  rw [tryFrom_ok_iff] at h h'
  unfold StatusByte statusCount at h h'
  rw [hc] at h
  rw [hc'] at h'
  have h1 : ¬ b.toNat < 0x41 ∧ b.toNat < 0x45 := by
    simp only [newStatuses, List.mem_cons, List.not_mem_nil, or_false] at hb
    rcases hb with rfl | rfl | rfl | rfl <;> decide
  rw [if_neg (by simpa using h1.1)] at h
  rw [if_pos (by simpa using h1.2)] at h'
  obtain ⟨v, -, rfl⟩ := h
  refine ⟨⟨v, rfl⟩, ?_⟩
  rintro v rfl
  have := List.mem_of_getElem? h'
  simp [standardStatuses] at this

/-- A vendor that uses 0x42: standard from 5.0. -/
example : Status.tryFrom ⟨false, false⟩ (fun b : UInt8 => (.ok b : Res UInt8 UInt8)) 0x42 = .ok (.vendor 0x42) ∧
    Status.tryFrom ⟨true, true⟩ (fun b : UInt8 => (.ok b : Res UInt8 UInt8)) 0x42 = .ok .unknownAdvertisingId :=
  ⟨rfl, rfl⟩

/-- **C27** for commands: a call that can be made with one version can be made with every later version,
under its new name, and does the same to any controller. -/
theorem C27_commands {VS σ E : Type} (hu : Upgrade c c') (cmd : Command VS) (he : Command.Exists c cmd)
    (hc : cmd.Constructible c) :
    Command.Exists c' (Command.renamed c' cmd) ∧ (Command.renamed c' cmd).Constructible c' ∧
    ∀ (l : Link) (k : Controller σ E) (vinto : VS → UInt8),
      (Command.renamed c' cmd).exec (linkHeader l) k vinto = cmd.exec (linkHeader l) k vinto := by
  have h50 := hu.2
  have hadv : ∀ x, BuiltAdv c x → BuiltAdv c' x := by
    rintro x ⟨t, h | ⟨lo, hi, h⟩⟩
    · exact ⟨t, .inl h⟩
    · refine ⟨t, .inr ⟨lo, hi, ?_⟩⟩
      rw [C34_accept_iff] at h ⊢
      obtain ⟨h1, h2, h3, h4⟩ := h
      refine ⟨h1, Nat.le_trans ?_ h2, h3, h4⟩
      by_cases hc : c'.v50 = false ∧ t = .scannableUndirected
      · have : c.v50 = false := by
          cases h : c.v50
          · rfl
          · rw [h50 h] at hc; exact absurd hc.1 (by decide)
        rw [if_pos hc, if_pos ⟨this, hc.2⟩]
      · rw [if_neg hc]
        split <;> simp only [ms] <;> omega
  have exec (b : Bool) (l : Link) (k : Controller σ E) (vinto : VS → UInt8) :
      (Command.leSetAdvertisingEnable b : Command VS).exec (linkHeader l) k vinto =
        (Command.leSetAdvertiseEnable b).exec (linkHeader l) k vinto := rfl
  cases cmd
  case leSetAdvertiseEnable b =>
    simp only [Command.renamed]
    split
    · exact ⟨by assumption, trivial, exec b⟩
    · refine ⟨?_, trivial, fun _ _ _ => rfl⟩
      simp only [Command.Exists]
      cases h : c'.v50
      · rfl
      · contradiction
  case leSetAdvertisingParameters p => exact ⟨trivial, hadv _ hc, fun _ _ _ => rfl⟩
  case leSetAdvertisingEnable b => exact ⟨h50 he, trivial, fun _ _ _ => rfl⟩
  case leAddAnonAdvertisingDevicesToWhiteList => exact ⟨h50 he, trivial, fun _ _ _ => rfl⟩
  case leRemoveAnonAdvertisingDevicesFromWhiteList => exact ⟨h50 he, trivial, fun _ _ _ => rfl⟩
  all_goals exact ⟨trivial, hc, fun _ _ _ => rfl⟩

example : Upgrade ⟨false, false⟩ ⟨true, false⟩ ∧ Upgrade ⟨true, false⟩ ⟨true, true⟩ :=
  ⟨⟨by decide, by decide⟩, ⟨by decide, by decide⟩⟩

/-- A reply with a new name in 5.0. -/
example : Event.new ⟨false, false⟩ demoVendor (frame 0x0E [1, 0x0A, 0x20, 0x00]) =
      .ok (.commandComplete ⟨1, .leSetAdvertiseEnable .success⟩) ∧
    Event.new ⟨true, true⟩ demoVendor (frame 0x0E [1, 0x0A, 0x20, 0x00]) =
      .ok (.commandComplete ⟨1, .leSetAdvertisingEnable .success⟩) := ⟨rfl, rfl⟩

/-- A status that only 5.0 knows. -/
example : Event.new ⟨false, false⟩ demoVendor (frame 0x0E [1, 0x03, 0x0C, 0x42]) = .err (.badStatus 0x42) ∧
    Event.new ⟨true, true⟩ demoVendor (frame 0x0E [1, 0x03, 0x0C, 0x42]) =
      .ok (.commandComplete ⟨1, .reset .unknownAdvertisingId⟩) := ⟨rfl, rfl⟩

end Bt
