import Verif.Spec.StandardEvents
import Verif.Props.Standard
import Verif.Props.StandardReports
import Verif.Spec.Streams

/-! # Lemmas: the events of a conforming controller -/

namespace Bt

open Spec

/-- The result is a value if `P` holds and an error otherwise. -/
def Fate {ε α : Type} (P : Prop) (r : Res ε α) : Prop := (P ∧ ∃ a, r = .ok a) ∨ (¬ P ∧ ∃ e, r = .err e)

theorem Fate.bind {ε α β : Type} {P Q : Prop} {r : Res ε α} {f : α → Res ε β} (h : Fate P r)
    (hf : ∀ a, r = .ok a → Fate Q (f a)) : Fate (P ∧ Q) (r >>= f) := by
  rcases h with ⟨hp, a, rfl⟩ | ⟨hp, e, rfl⟩
  · rcases hf a rfl with ⟨hq, h⟩ | ⟨hq, h⟩
    · exact .inl ⟨⟨hp, hq⟩, h⟩
    · exact .inr ⟨fun h => hq h.2, h⟩
  · exact .inr ⟨fun h => hp h.1, e, rfl⟩

theorem Fate.ok {ε α : Type} (a : α) : Fate True (.ok a : Res ε α) := .inl ⟨trivial, a, rfl⟩

theorem Fate.iff {ε α : Type} {P Q : Prop} {r : Res ε α} (h : Fate P r) (hpq : P ↔ Q) : Fate Q r := by
  rcases h with ⟨hp, h⟩ | ⟨hp, h⟩
  · exact .inl ⟨hpq.mp hp, h⟩
  · exact .inr ⟨fun hq => hp (hpq.mpr hq), h⟩

theorem Fate.mapErr {ε ε' α : Type} {P : Prop} {r : Res ε α} (h : Fate P r) (f : ε → ε') :
    Fate P (r.mapErr f) := by
  rcases h with ⟨hp, a, rfl⟩ | ⟨hp, e, rfl⟩
  · exact .inl ⟨hp, a, rfl⟩
  · exact .inr ⟨hp, f e, rfl⟩

/-- A parser of one byte that accepts the bytes up to `k`. -/
theorem fate_byte {ε α : Type} {r : Res ε α} {b k : UInt8} (he : ∀ e, r = .err e → k < b)
    (ho : ∀ a, r = .ok a → b ≤ k) (hp : r ≠ .panic) : Fate (b ≤ k) r := by
  cases hr : r with
  | ok a => exact .inl ⟨ho a hr, a, rfl⟩
  | err e => exact .inr ⟨UInt8.not_le.mpr (he e hr), e, rfl⟩
  | panic => exact absurd hr hp

section
variable {VE : Type}

theorem fate_linkType (b : UInt8) : Fate (b ≤ 1) (LinkType.tryFrom (VE := VE) b) :=
  fate_byte (fun e h => ((linkType_err b e).mp h).1)
    (fun a h => by rw [(linkType_ok b a).mp h]; cases a <;> decide) (linkType_panic b)

theorem fate_encryptionEnabled (b : UInt8) : Fate (b ≤ 1) (tryIntoEncryptionEnabled (VE := VE) b) :=
  fate_byte (fun e h => ((encryptionEnabled_err b e).mp h).1)
    (fun a h => by rw [(encryptionEnabled_ok b a).mp h]; cases a <;> decide) (encryptionEnabled_panic b)

theorem fate_encryption (b : UInt8) : Fate (b ≤ 2) (Encryption.tryFrom (VE := VE) b) :=
  fate_byte (fun e h => ((encryption_err b e).mp h).1)
    (fun a h => by rw [(encryption_ok b a).mp h]; cases a <;> decide) (encryption_panic b)

theorem fate_role (b : UInt8) : Fate (b ≤ 1) (ConnectionRole.tryFrom (VE := VE) b) :=
  fate_byte (fun e h => ((role_err b e).mp h).1)
    (fun a h => by rw [(role_ok b a).mp h]; cases a <;> decide) (role_panic b)

theorem fate_clock (b : UInt8) : Fate (b ≤ 7) (CentralClockAccuracy.tryFrom (VE := VE) b) :=
  fate_byte (fun e h => ((clock_err b e).mp h).1)
    (fun a h => by rw [(clock_ok b a).mp h]; cases a <;> decide) (clock_panic b)

theorem fate_phy (b : UInt8) : Fate (b ≤ 2) (Phy.tryFrom (VE := VE) b) :=
  fate_byte (fun e h => ((phy_err b e).mp h).1)
    (fun a h => by rw [(phy_ok b a).mp h]; cases a <;> decide) (phy_panic b)

theorem fate_addrType (b : UInt8) (a : BdAddr) : Fate (b ≤ 1) (toBdAddrType b a) :=
  fate_byte (fun e h => ((addrType_err b a e).mp h).1)
    (fun x h => by
      have := (addrType_ok b a x).mp h
      cases x <;> (simp only [addrTypeBytes, List.cons.injEq] at this; rw [this.1]; decide))
    (addrType_panic b a)

end

theorem legal_standard {a l t : Nat} (h : LegalRaw a a l t) : StandardConnection a l t ∧ t ≠ 10 := by
  obtain ⟨h1, -, h2, h3, h4, -, h5, h6⟩ := h
  refine ⟨⟨⟨h1, h2⟩, h3, ⟨by omega, by omega⟩, ?_⟩, by omega⟩
  have e : (1 + l) * (1250 * us * a) * 2 = (1 + l) * a * 2500000 := by
    unfold us
    rw [show 1250 * 1000 * a = a * 1250000 from by omega, ← Nat.mul_assoc, Nat.mul_assoc _ 1250000]
  rw [e]
  unfold ms
  omega

theorem fate_interval (a l t : UInt16) :
    Fate (StandardConnection a.toNat l.toNat t.toNat ∧ t ≠ 10)
      (FixedConnectionInterval.fromBytes (le16 a ++ le16 l ++ le16 t)) := by
  have ht : t ≠ 10 ↔ t.toNat ≠ 10 := by rw [Ne, Ne, ← UInt16.toNat_inj]; rfl
  rw [ht]
  by_cases h : StandardConnection a.toNat l.toNat t.toNat ∧ t.toNat ≠ 10
  · obtain ⟨i, hi⟩ := intervalFields_exists ((standard_legal h.1).mpr h.2)
    exact .inl ⟨h, i, (interval_ok _ _ _ _).mpr hi⟩
  · refine .inr ⟨h, ?_⟩
    cases hr : FixedConnectionInterval.fromBytes (le16 a ++ le16 l ++ le16 t) with
    | ok i => exact absurd (legal_standard ((interval_ok _ _ _ _).mp hr).1) h
    | err e => exact ⟨e, rfl⟩
    | panic => exact absurd hr (interval_panic a l t)

variable (c : Cfg) (V : Vendor)

theorem statusByte_exists {b : UInt8} (h : b.toNat < statusCount c) : ∃ s, StatusByte c V b s := by
  have hl : b.toNat < (standardStatuses (VS := V.VStatus)).length := by
    have : statusCount c ≤ 0x45 := by unfold statusCount; split <;> decide
    exact Nat.lt_of_lt_of_le h this
  exact ⟨standardStatuses[b.toNat], by unfold StatusByte; rw [if_pos h]; exact List.getElem?_eq_getElem hl⟩

theorem fate_status {b : UInt8} (h : b.toNat < statusCount c) : Fate True (tryStatus c V b) := by
  obtain ⟨s, hs⟩ := statusByte_exists c V h
  exact .inl ⟨trivial, s, (tryStatus_ok_iff c V b s).mpr hs⟩

theorem fate_says {P : Prop} {code : UInt8} {ps : List UInt8} {e : V.Ev} (hl : ps.length ≤ 255)
    (h : Says c V code ps e) (hp : P) : Fate P (Event.new c V (frame code ps)) :=
  .inl ⟨hp, e, (C09_sound_and_complete c V _ _).mpr ⟨_, _, rfl, hl, h⟩⟩

/-- A Command Complete with a status. -/
theorem fate_reply (n : UInt8) (r : StdReply) (hs : r.status.toNat < statusCount c)
    (ho : ∀ o st, r = .statusOnly o st → o ∈ statusOnlyOpcodes)
    (hl : (StdEvent.commandComplete n r).params.length ≤ 255) :
    Fate ((StdEvent.commandComplete n r).InRange c) (Event.new c V (StdEvent.commandComplete n r).packet) := by
  obtain ⟨s, hs⟩ := statusByte_exists c V hs
  have key : ∀ {P : Prop} {ps : ReturnParameters V.VStatus V.VRet},
      Returns c V r.opcode (r.status :: r.rest) ps → P →
      Fate P (Event.new c V (StdEvent.commandComplete n r).packet) :=
    fun h hp => fate_says c V hl (.commandComplete h) hp
  cases r with
  | statusOnly o st =>
    have hm : ∃ mk : Status V.VStatus → ReturnParameters V.VStatus V.VRet, (o, mk) ∈ statusReplies c := by
      have h1 := ho o st rfl
      have h2 : statusOnlyOpcodes = (statusReplies c (VS := V.VStatus) (VR := V.VRet)).map Prod.fst := rfl
      rw [h2] at h1
      obtain ⟨⟨o', mk⟩, h3, rfl⟩ := List.mem_map.mp h1
      exact ⟨mk, h3⟩
    obtain ⟨mk, hm⟩ := hm
    exact key (.statusOnly hm hs) trivial
  | txPowerLevel st h x =>
    obtain ⟨y, rfl⟩ := twos_exists x
    exact key (.readTxPowerLevel hs) trivial
  | localVersion st hv hr lv m ls => exact key (.readLocalVersionInformation hs) trivial
  | supportedCommands st f =>
    by_cases hb : ∀ i j, HasBit f.val i j → CommandBit c i j
    · exact key (.readLocalSupportedCommands (f := ⟨f⟩) hs hb) hb
    · exact .inr ⟨hb, _, (C25_supported_commands (c := c) (V := V) n st hs f).2 hb⟩
  | supportedFeatures st x =>
    obtain ⟨y, h, -⟩ := C25_local_features (c := c) (V := V) n st hs x
    exact .inl ⟨trivial, _, h⟩
  | bdAddr st a => exact key (.readBdAddr (a := ⟨a⟩) hs) trivial
  | rssi st h x =>
    obtain ⟨y, rfl⟩ := twos_exists x
    exact key (.readRssi hs) trivial
  | leBufferSize st l k => exact key (.leReadBufferSize hs) trivial
  | leFeatures st x =>
    obtain ⟨y, h, -⟩ := C25_local_le_features (c := c) (V := V) n st hs x
    exact .inl ⟨trivial, _, h⟩
  | leChannelTxPower st x =>
    obtain ⟨y, rfl⟩ := twos_exists x
    exact key (.leReadAdvertisingChannelTxPower hs) trivial
  | leWhiteListSize st k => exact key (.leReadWhiteListSize hs) trivial
  | leChannelMap st h m =>
    by_cases hb : ∀ i j, HasBit m.val i j → ChannelBit i j
    · exact key (.leReadChannelMap (m := ⟨m⟩) hs hb) hb
    · exact .inr ⟨hb, _, (C25_channel_map (c := c) (V := V) n st hs h m).2 hb⟩
  | leEncrypt st d => exact key (.leEncrypt hs) trivial
  | leRand st x => exact key (.leRand hs) trivial
  | leLongTermKeyReply st h => exact key (.leLongTermKeyRequestReply hs) trivial
  | leLongTermKeyNegativeReply st h => exact key (.leLongTermKeyRequestNegativeReply hs) trivial
  | leStates st x =>
    by_cases hb : ∀ j, x.toNat.testBit j = true → LeStateBit j
    · exact key (.leReadSupportedStates hs hb) hb
    · exact .inr ⟨hb, _, (C25_le_states (c := c) (V := V) n st hs x).2 hb⟩
  | leTestEnd st k => exact key (.leTestEnd hs) trivial

/-- The numbers of the crate are not those of the standard. -/
theorem phys_misread {st : UInt8} {h : UInt16} {tx rx : UInt8} {e : V.Ev}
    (hs : Says c V (StdEvent.lePhyUpdate st h tx rx).code (StdEvent.lePhyUpdate st h tx rx).params e) :
    ¬ HasPhys tx rx e := by
  generalize hc : (StdEvent.lePhyUpdate st h tx rx).code = code at hs
  generalize hq : (StdEvent.lePhyUpdate st h tx rx).params = q at hs
  have hq' : 0x0C :: st :: le16 h ++ [tx, rx] = q := hq
  intro hp
  cases hs with
  | lePhyUpdateComplete hs' =>
    rename_i st' s' h' tx' rx'
    have h1 := (List.append_inj (s₁ := 0x0C :: st :: le16 h) (s₂ := 0x0C :: st' :: le16 h') hq' (by simp)).2
    obtain ⟨h2, -⟩ := hp
    have h3 : tx = phyCode tx' := (List.cons.inj h1).1
    have h4 : phyCodeOfStandard tx' = phyCode tx' := h2.trans h3
    revert h4
    cases tx' <;> decide
  | _ => exact hp

/-- What becomes of every event of a conforming controller. -/
theorem fate_event (x : StdEvent) (hx : x.Conforms c) :
    Fate (x.InRange c ∧ ¬ x.Rejected c) (Event.new c V x.packet) := by
  obtain ⟨he, hr, ho, hl⟩ := hx
  cases x with
  | connection st h a lt enc =>
    have hs := he st (by simp [StdEvent.errorCodes])
    unfold StdEvent.packet
    rw [event_framed c V _ _ hl]
    show Fate _ (toConnectionComplete c V (st :: le16 h ++ a.val ++ [lt, enc]) >>=
      fun a => (.ok (Event.connectionComplete a) : Res V.EvErr V.Ev))
    rw [connectionComplete_eq c V st h ⟨a⟩]
    refine (Fate.bind (Fate.bind (fate_status c V hs) fun _ _ => Fate.bind (fate_linkType lt) fun _ _ =>
      Fate.bind (fate_encryptionEnabled enc) fun _ _ => Fate.ok _) fun _ _ => Fate.ok _).iff ?_
    simp only [true_and, and_true, StdEvent.InRange]
    exact ⟨fun h => ⟨h, by rintro ⟨⟩⟩, fun h => h.1⟩
  | disconnection st h rs =>
    obtain ⟨s, hs⟩ := statusByte_exists c V (he st (by simp [StdEvent.errorCodes]))
    obtain ⟨r, hr⟩ := statusByte_exists c V (he rs (by simp [StdEvent.errorCodes]))
    exact fate_says c V hl (.disconnectionComplete hs hr) ⟨trivial, by rintro ⟨⟩⟩
  | encryptionChange st h e =>
    have hs := he st (by simp [StdEvent.errorCodes])
    unfold StdEvent.packet
    rw [event_framed c V _ _ hl]
    show Fate _ (toEncryptionChange c V (st :: le16 h ++ [e]) >>=
      fun a => (.ok (Event.encryptionChange a) : Res V.EvErr V.Ev))
    rw [encryptionChange_eq c V st h]
    refine (Fate.bind (Fate.bind (fate_status c V hs) fun _ _ => Fate.bind (fate_encryption e) fun _ _ =>
      Fate.ok _) fun _ _ => Fate.ok _).iff ?_
    simp only [true_and, and_true, StdEvent.InRange]
    exact ⟨fun h => ⟨h, by rintro ⟨⟩⟩, fun h => h.1⟩
  | remoteVersion st h v m x =>
    obtain ⟨s, hs⟩ := statusByte_exists c V (he st (by simp [StdEvent.errorCodes]))
    exact fate_says c V hl (.readRemoteVersionInformationComplete hs) ⟨trivial, by rintro ⟨⟩⟩
  | commandComplete n r =>
    refine (fate_reply c V n r (he _ (by simp [StdEvent.errorCodes])) (fun o st h => ho n o st (by rw [h])) hl).iff ?_
    exact ⟨fun h => ⟨h, by rintro ⟨⟩⟩, fun h => h.1⟩
  | noCommandComplete n =>
    exact fate_says c V hl (.commandComplete (o := 0) (ps := []) .spontaneous) ⟨trivial, by rintro ⟨⟩⟩
  | commandStatus st n o =>
    obtain ⟨s, hs⟩ := statusByte_exists c V (he st (by simp [StdEvent.errorCodes]))
    exact fate_says c V hl (.commandStatus hs) ⟨trivial, by rintro ⟨⟩⟩
  | hardwareError x => exact fate_says c V hl .hardwareError ⟨trivial, by rintro ⟨⟩⟩
  | completedPackets xs =>
    have h2 : (pairsBytes xs).length ≤ 254 := Nat.le_of_succ_le_succ hl
    exact fate_says c V hl (.numberOfCompletedPackets (buf := zeroPadded _ _ h2) ((inZeroes_iff _ _ h2).mpr rfl))
      ⟨trivial, by rintro ⟨⟩⟩
  | bufferOverflow lt =>
    unfold StdEvent.packet
    rw [event_framed c V _ _ hl]
    show Fate _ (toDataBufferOverflow V [lt] >>= fun a => (.ok (Event.dataBufferOverflow a) : Res V.EvErr V.Ev))
    rw [dataBufferOverflow_eq]
    refine (Fate.bind (Fate.bind (fate_linkType lt) fun _ _ => Fate.ok _) fun _ _ => Fate.ok _).iff ?_
    simp only [and_true, StdEvent.InRange]
    exact ⟨fun h => ⟨h, by rintro ⟨⟩⟩, fun h => h.1⟩
  | keyRefresh st h =>
    obtain ⟨s, hs⟩ := statusByte_exists c V (he st (by simp [StdEvent.errorCodes]))
    exact fate_says c V hl (.encryptionKeyRefreshComplete hs) ⟨trivial, by rintro ⟨⟩⟩
  | leConnection st h role pt p a l t clock =>
    have hs := he st (by simp [StdEvent.errorCodes])
    unfold StdEvent.packet
    rw [event_framed c V _ _ hl]
    show Fate _ (toLeMetaEvent c V (0x01 :: _))
    rw [leMeta_eq]
    show Fate _ (toLeConnectionComplete c V (0x01 :: st :: le16 h ++ role :: pt :: p.val ++ le16 a ++ le16 l ++
      le16 t ++ [clock]) >>= fun a => (.ok (Event.leConnectionComplete a) : Res V.EvErr V.Ev))
    rw [leConnectionComplete_eq c V _ st h role pt ⟨p⟩]
    refine (Fate.bind (Fate.bind (fate_status c V hs) fun _ _ => Fate.bind (fate_role role) fun _ _ =>
      Fate.bind ((fate_addrType pt ⟨p⟩).mapErr _) fun _ _ => Fate.bind ((fate_interval a l t).mapErr _) fun _ _ =>
      Fate.bind (fate_clock clock) fun _ _ => Fate.ok _) fun _ _ => Fate.ok _).iff ?_
    simp only [true_and, and_true, StdEvent.InRange]
    constructor
    · rintro ⟨h1, h2, ⟨h3, h4⟩, h5⟩
      exact ⟨⟨h1, h2, h3, h5⟩, by rintro ⟨⟩; exact h4 rfl⟩
    · rintro ⟨⟨h1, h2, h3, h5⟩, h4⟩
      exact ⟨h1, h2, ⟨h3, by rintro rfl; exact h4 .timeout⟩, h5⟩
  | leReports rs =>
    have hc : ∀ r ∈ rs, r.Conforms c := by
      rcases hr with ⟨st, rest, h, -⟩ | hr
      · cases h
      · exact hr
    have h2 : (rawBytes rs).length ≤ 253 := Nat.le_of_succ_le_succ (Nat.le_of_succ_le_succ hl)
    by_cases ha : ∀ r ∈ rs, r.addressType ≤ 1
    · obtain ⟨e, as, h, -, -⟩ := (C81_delivered_partial c V (ε := Unit) _ rs hc h2).mpr ha
      refine .inl ⟨⟨hc, ?_⟩, _, h⟩
      rintro (_ | _ | ⟨h3, h4⟩)
      exact absurd (ha _ h3) (UInt8.not_le.mpr h4)
    · refine .inr ⟨?_, ?_⟩
      · rintro ⟨-, hn⟩
        refine ha fun r h3 => Classical.byContradiction fun h4 => hn (.identityAddress h3 (UInt8.not_le.mp h4))
      · obtain ⟨pre, r, post, rfl, h3, h4⟩ := raw_split ha
        refine ⟨_, C81_identity c V _ pre r post (fun x hx => hc x ?_) h3 (UInt8.not_le.mp h4) h2⟩
        simp only [List.mem_append, List.mem_cons, List.not_mem_nil, or_false] at hx ⊢
        rcases hx with h | h
        · exact .inl h
        · exact .inr (.inl h)
  | leConnectionUpdate st h a l t =>
    have hs := he st (by simp [StdEvent.errorCodes])
    unfold StdEvent.packet
    rw [event_framed c V _ _ hl]
    show Fate _ (toLeMetaEvent c V (0x03 :: _))
    rw [leMeta_eq]
    show Fate _ (toLeConnectionUpdateComplete c V (0x03 :: st :: le16 h ++ le16 a ++ le16 l ++ le16 t) >>=
      fun a => (.ok (Event.leConnectionUpdateComplete a) : Res V.EvErr V.Ev))
    rw [leConnectionUpdateComplete_eq]
    refine (Fate.bind (Fate.bind (fate_status c V hs) fun _ _ => Fate.bind ((fate_interval a l t).mapErr _)
      fun _ _ => Fate.ok _) fun _ _ => Fate.ok _).iff ?_
    simp only [true_and, and_true, StdEvent.InRange]
    constructor
    · rintro ⟨h3, h4⟩
      exact ⟨h3, by rintro ⟨⟩; exact h4 rfl⟩
    · rintro ⟨h3, h4⟩
      exact ⟨h3, by rintro rfl; exact h4 .updateTimeout⟩
  | leRemoteFeatures st h x =>
    obtain ⟨s, hs⟩ := statusByte_exists c V (he st (by simp [StdEvent.errorCodes]))
    by_cases hb : ∀ j, x.toNat.testBit j = true → LeFeatureBit c j
    · refine fate_says c V hl (.leReadRemoteUsedFeaturesComplete hs hb) ⟨trivial, ?_⟩
      rintro (_ | _ | _ | ⟨h1, h2⟩)
      exact h2 (hb _ h1)
    · refine .inr ⟨?_, _, (C25_remote_features (c := c) (V := V) st hs h x).2 hb⟩
      rintro ⟨-, hn⟩
      refine hb fun j h1 => Classical.byContradiction fun h2 => hn (.feature h1 h2)
  | leLongTermKeyRequest h x d => exact fate_says c V hl .leLongTermKeyRequest ⟨trivial, by rintro ⟨⟩⟩
  | leDataLength h a b d e => exact fate_says c V hl .leDataLengthChangeEvent ⟨trivial, by rintro ⟨⟩⟩
  | lePhyUpdate st h tx rx =>
    have hs := he st (by simp [StdEvent.errorCodes])
    unfold StdEvent.packet
    rw [event_framed c V _ _ hl]
    show Fate _ (toLeMetaEvent c V (0x0C :: _))
    rw [leMeta_eq]
    show Fate _ (toLePhyUpdateComplete c V (0x0C :: st :: le16 h ++ [tx, rx]) >>=
      fun a => (.ok (Event.lePhyUpdateComplete a) : Res V.EvErr V.Ev))
    rw [lePhyUpdateComplete_eq]
    refine (Fate.bind (Fate.bind (fate_status c V hs) fun _ _ => Fate.bind (fate_phy tx) fun _ _ =>
      Fate.bind (fate_phy rx) fun _ _ => Fate.ok _) fun _ _ => Fate.ok _).iff ?_
    simp only [true_and, and_true, StdEvent.InRange]
    have h23 : ∀ b : UInt8, b ≤ 2 ↔ b ≤ 3 ∧ b ≠ 3 := by
      intro b
      simp only [UInt8.le_iff_toNat_le, Ne, ← UInt8.toNat_inj, UInt8.reduceToNat]
      omega
    rw [h23, h23]
    constructor
    · rintro ⟨⟨h1, h2⟩, h3, h4⟩
      exact ⟨⟨h1, h3⟩, by rintro ⟨⟩ <;> contradiction⟩
    · rintro ⟨⟨h1, h3⟩, h4⟩
      exact ⟨⟨h1, by rintro rfl; exact h4 .codedTx⟩, h3, by rintro rfl; exact h4 .codedRx⟩

theorem std_framed {c : Cfg} {xs : List StdEvent} (hx : ∀ x ∈ xs, x.Conforms c) :
    ∀ p ∈ xs.map StdEvent.packet, Framed p := by
  intro p hp
  obtain ⟨x, h, rfl⟩ := List.mem_map.mp hp
  exact ⟨x.code, x.params, (hx x h).length, rfl⟩

theorem map_prefix_split {α β : Type} {f : α → β} {ps : List β} {xs : List α} (h : ps <+: xs.map f) :
    ∃ ys zs, xs = ys ++ zs ∧ ps = ys.map f := by
  obtain ⟨t, ht⟩ := h
  obtain ⟨ys, zs, h1, h2, -⟩ := List.map_eq_append_iff.mp ht.symm
  exact ⟨ys, zs, h1, h2.symm⟩

end Bt
