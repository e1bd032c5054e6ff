import Verif.Lemmas.VarEvents

/-! # Event decoding as a whole: results, errors and panics -/

namespace Bt

open Spec

variable (c : Cfg) (V : Vendor)

/-- The dispatch of `Event::new` on the event code. -/
def dispatch (code : UInt8) (payload : List UInt8) : Res V.EvErr V.Ev :=
  match code with
  | 0x03 => do .ok (.connectionComplete (← toConnectionComplete c V payload))
  | 0x05 => do .ok (.disconnectionComplete (← toDisconnectionComplete c V payload))
  | 0x08 => do .ok (.encryptionChange (← toEncryptionChange c V payload))
  | 0x0C => do .ok (.readRemoteVersionInformationComplete (← toRemoteVersionInfo c V payload))
  | 0x0E => do .ok (.commandComplete (← CommandComplete.new c V payload))
  | 0x0F => do .ok (.commandStatus (← toCommandStatus c V payload))
  | 0x10 => do .ok (.hardwareError (← toHardwareError V payload))
  | 0x13 => do .ok (.numberOfCompletedPackets (← toNumberOfCompletedPackets V payload))
  | 0x1A => do .ok (.dataBufferOverflow (← toDataBufferOverflow V payload))
  | 0x30 => do
    .ok (.encryptionKeyRefreshComplete (← toEncryptionKeyRefreshComplete c V payload))
  | 0x3E => toLeMetaEvent c V payload
  | 0xFF => do .ok (.vendor (← V.eventNew payload))
  | _ => .err (.unknownEvent code)

theorem event_short (packet : List UInt8) (h : packet.length < 2) :
    Event.new c V packet = .err (.badLength packet.length 2) := by
  unfold Event.new
  have e1 : requireLenAtLeast (VE := V.VErr) packet PACKET_HEADER_LENGTH = .err (.badLength packet.length 2) := by
    unfold requireLenAtLeast PACKET_HEADER_LENGTH
    rw [if_pos h]
  rw [e1]
  rfl

theorem event_misframed (code n : UInt8) (ps : List UInt8) (h : ps.length ≠ n.toNat) :
    Event.new c V (code :: n :: ps) = .err (.badLength (2 + ps.length) (2 + n.toNat)) := by
  unfold Event.new
  have e1 : requireLenAtLeast (VE := V.VErr) (code :: n :: ps) PACKET_HEADER_LENGTH = .ok () := by
    unfold requireLenAtLeast PACKET_HEADER_LENGTH
    rw [if_neg (by simp)]
  have e2 {ε : Type} : fullLength (ε := ε) (code :: n :: ps) = .ok (2 + n.toNat) := rfl
  rw [e1, e2]
  simp only [Res.bind_ok]
  rw [requireLen_err (by simp; omega), Res.bind_err]
  simp only [List.length_cons]
  rw [show ps.length + 1 + 1 = 2 + ps.length by omega]

theorem event_framed (code : UInt8) (ps : List UInt8) (h : ps.length ≤ 255) :
    Event.new c V (frame code ps) = dispatch c V code ps := by
  have hn : (UInt8.ofNat ps.length).toNat = ps.length := by rw [UInt8.toNat_ofNat']; omega
  unfold Event.new frame
  generalize UInt8.ofNat ps.length = n at hn
  have e1 : requireLenAtLeast (VE := V.VErr) (code :: n :: ps) PACKET_HEADER_LENGTH = .ok () := by
    unfold requireLenAtLeast PACKET_HEADER_LENGTH
    rw [if_neg (by simp)]
  have e2 {ε : Type} : fullLength (ε := ε) (code :: n :: ps) = .ok (2 + n.toNat) := rfl
  have e3 {ε : Type} : idx (ε := ε) (code :: n :: ps) EVENT_TYPE_BYTE = .ok code := rfl
  have e4 {ε : Type} : slice (ε := ε) (code :: n :: ps) PACKET_HEADER_LENGTH (2 + n.toNat) = .ok ps := by
    rw [slice_of_le (by simp [PACKET_HEADER_LENGTH]) (by simp; omega), hn]
    rw [show 2 + ps.length = (code :: n :: ps).length by simp; omega, List.take_length]
    rfl
  rw [e1, e2]
  simp only [Res.bind_ok]
  rw [requireLen_ok (by simp; omega), Res.bind_ok, e3, Res.bind_ok, e4]
  rfl

/-- Every byte string is too short, misframed, or a frame. -/
theorem packet_cases (packet : List UInt8) :
    packet.length < 2 ∨ (∃ code n ps, packet = code :: n :: ps ∧ ps.length ≠ n.toNat) ∨
      ∃ code ps, packet = frame code ps ∧ ps.length ≤ 255 := by
  match packet with
  | [] => exact .inl (by decide)
  | [_] => exact .inl (by simp)
  | code :: n :: ps =>
    by_cases h : ps.length = n.toNat
    · refine .inr (.inr ⟨code, ps, ?_, ?_⟩)
      · rw [frame, h, UInt8.ofNat_toNat]
      · have := n.toNat_lt; omega
    · exact .inr (.inl ⟨code, n, ps, rfl, h⟩)

theorem frame_inj {code code' : UInt8} {ps ps' : List UInt8} (h : frame code ps = frame code' ps') :
    code = code' ∧ ps = ps' := by
  simp only [frame, List.cons.injEq] at h
  exact ⟨h.1, h.2.2⟩

theorem mapOk_def {ε α β : Type} (x : Res ε α) (f : α → β) : (x >>= fun a => .ok (f a)) = x.mapOk f := by
  cases x <;> rfl

theorem evOutcome_status {code st : UInt8} {ps : List UInt8} {i : Nat} (hst : StatusAt code ps i st)
    {F : Status V.VStatus → Res (EvError V.VErr) V.Ev}
    (h : ∀ s, StatusByte c V st s → EvOutcome c V code ps (F s)) :
    EvOutcome c V code ps (tryStatus c V st >>= F) := by
  cases hs : tryStatus c V st with
  | ok s => exact h s ((tryStatus_ok_iff c V st s).mp hs)
  | err e =>
    obtain ⟨w, h1, h2, rfl⟩ := (tryStatus_err c V st e).mp hs
    exact .err (.status hst h1 h2)
  | panic => exact .vendorPanic fun hV => tryStatus_panic c V hV st hs

theorem leMeta_eq (sub : UInt8) (ps : List UInt8) :
    toLeMetaEvent c V (sub :: ps) =
      match sub with
      | 0x01 => do .ok (.leConnectionComplete (← toLeConnectionComplete c V (sub :: ps)))
      | 0x02 => do .ok (.leAdvertisingReport (← toLeAdvertisingReport (sub :: ps)))
      | 0x03 => do .ok (.leConnectionUpdateComplete (← toLeConnectionUpdateComplete c V (sub :: ps)))
      | 0x04 => do
        .ok (.leReadRemoteUsedFeaturesComplete (← toLeReadRemoteUsedFeaturesComplete c V (sub :: ps)))
      | 0x05 => do .ok (.leLongTermKeyRequest (← toLeLtkRequest V (sub :: ps)))
      | 0x07 => do .ok (.leDataLengthChangeEvent (← toLeDataLengthChangeEvent V (sub :: ps)))
      | 0x0C => do .ok (.lePhyUpdateComplete (← toLePhyUpdateComplete c V (sub :: ps)))
      | _ => .err (.unknownEvent sub) := by
  unfold toLeMetaEvent
  have e1 : requireLenAtLeast (VE := V.VErr) (sub :: ps) 1 = .ok () := by simp [requireLenAtLeast]
  rw [e1]
  rfl

theorem interval_panic (a l t : UInt16) :
    FixedConnectionInterval.fromBytes (le16 a ++ le16 l ++ le16 t) ≠ .panic := by
  intro h
  have := (C30_panic_iff _).2.mp h
  simp [le16, le] at this

/-- An interval that is not accepted. -/
theorem interval_bind {code : UInt8} {ps : List UInt8} {a l t : UInt16}
    {F : FixedConnectionInterval → Res (EvError V.VErr) V.Ev}
    (hf : ∀ e (lo tmo : Duration), lo.ns = 1250 * us * a.toNat → tmo.ns = 10 * ms * t.toNat →
      FirstViolation lo lo l tmo e → FieldFault c V code ps (.badConnectionInterval e))
    (h : ∀ i, IntervalFields a l t i → EvOutcome c V code ps (F i)) :
    EvOutcome c V code ps
      ((FixedConnectionInterval.fromBytes (le16 a ++ le16 l ++ le16 t)).mapErr .badConnectionInterval >>= F) := by
  cases hi : FixedConnectionInterval.fromBytes (le16 a ++ le16 l ++ le16 t) with
  | ok i => exact h i ((interval_ok a l t i).mp hi)
  | err e =>
    obtain ⟨lo, tmo, h1, h2, h3⟩ := interval_err a l t e hi
    exact .err (hf e lo tmo h1 h2 h3).choose_spec
  | panic => exact absurd hi (interval_panic a l t)

theorem addr_getElem (a : BdAddr) (pre rest : List UInt8) (i : Nat) :
    (pre ++ a.val.val ++ rest)[pre.length + 6 + i]? = rest[i]? := by
  rw [List.getElem?_append_right (by simp [a.val.len])]
  simp [a.val.len]

theorem connectionComplete_outcome (p : List UInt8) (hp : p.length ≤ 255) :
    EvOutcome c V 0x03 p ((toConnectionComplete c V p).mapOk .connectionComplete) := by
  by_cases hl : p.length = 11
  · obtain ⟨st, h, a, x, y, rfl⟩ := connectionComplete_shape p hl
    rw [connectionComplete_eq, mapOk_bind]
    refine evOutcome_status c V (.first (by decide) rfl) fun s hs => ?_
    have g9 : (st :: le16 h ++ a.val.val ++ [x, y])[9]? = some x := addr_getElem a (st :: le16 h) [x, y] 0
    have g10 : (st :: le16 h ++ a.val.val ++ [x, y])[10]? = some y := addr_getElem a (st :: le16 h) [x, y] 1
    cases hx : LinkType.tryFrom (VE := V.VErr) x with
    | panic => exact absurd hx (linkType_panic x)
    | err e =>
      obtain ⟨h1, rfl⟩ := (linkType_err x e).mp hx
      exact .err (.linkType g9 h1)
    | ok lt =>
      cases hy : tryIntoEncryptionEnabled (VE := V.VErr) y with
      | panic => exact absurd hy (encryptionEnabled_panic y)
      | err e =>
        obtain ⟨h1, rfl⟩ := (encryptionEnabled_err y e).mp hy
        exact .err (.encryptionEnabled g10 h1)
      | ok enc =>
        obtain rfl := (linkType_ok x lt).mp hx
        obtain rfl := (encryptionEnabled_ok y enc).mp hy
        exact .ok (.connectionComplete hs)
  · rw [connectionComplete_len c V p hl]
    exact .len (.params (by decide) hp hl)

theorem disconnectionComplete_outcome (p : List UInt8) (hp : p.length ≤ 255) :
    EvOutcome c V 0x05 p ((toDisconnectionComplete c V p).mapOk .disconnectionComplete) := by
  by_cases hl : p.length = 4
  · obtain ⟨st, h, x, rfl⟩ := disconnectionComplete_shape p hl
    rw [disconnectionComplete_eq, mapOk_bind]
    refine evOutcome_status c V (.first (by decide) rfl) fun s hs => ?_
    cases hx : tryReason c V x with
    | panic => exact .vendorPanic fun hV => tryReason_panic c V hV x hx
    | err e =>
      obtain ⟨w, h1, h2, rfl⟩ := (tryReason_err c V x e).mp hx
      exact .err (.reason rfl h1 h2)
    | ok r => exact .ok (.disconnectionComplete hs ((tryReason_ok_iff c V x r).mp hx))
  · rw [disconnectionComplete_len c V p hl]
    exact .len (.params (by decide) hp hl)

theorem encryptionChange_outcome (p : List UInt8) (hp : p.length ≤ 255) :
    EvOutcome c V 0x08 p ((toEncryptionChange c V p).mapOk .encryptionChange) := by
  by_cases hl : p.length = 4
  · obtain ⟨st, h, x, rfl⟩ := encryptionChange_shape p hl
    rw [encryptionChange_eq, mapOk_bind]
    refine evOutcome_status c V (.first (by decide) rfl) fun s hs => ?_
    cases hx : Encryption.tryFrom (VE := V.VErr) x with
    | panic => exact absurd hx (encryption_panic x)
    | err e =>
      obtain ⟨h1, rfl⟩ := (encryption_err x e).mp hx
      exact .err (.encryption rfl h1)
    | ok r =>
      obtain rfl := (encryption_ok x r).mp hx
      exact .ok (.encryptionChange hs)
  · rw [encryptionChange_len c V p hl]
    exact .len (.params (by decide) hp hl)

theorem remoteVersionInfo_outcome (p : List UInt8) (hp : p.length ≤ 255) :
    EvOutcome c V 0x0C p ((toRemoteVersionInfo c V p).mapOk .readRemoteVersionInformationComplete) := by
  by_cases hl : p.length = 8
  · obtain ⟨st, h, v, m, x, rfl⟩ := remoteVersionInfo_shape p hl
    rw [remoteVersionInfo_eq, mapOk_bind]
    exact evOutcome_status c V (.first (by decide) rfl) fun s hs =>
      .ok (.readRemoteVersionInformationComplete hs)
  · rw [remoteVersionInfo_len c V p hl]
    exact .len (.params (by decide) hp hl)

theorem commandStatus_outcome (p : List UInt8) (hp : p.length ≤ 255) :
    EvOutcome c V 0x0F p ((toCommandStatus c V p).mapOk .commandStatus) := by
  by_cases hl : p.length = 4
  · obtain ⟨st, n, o, rfl⟩ := commandStatus_shape p hl
    rw [commandStatus_eq, mapOk_bind]
    exact evOutcome_status c V (.first (by decide) rfl) fun s hs => .ok (.commandStatus hs)
  · rw [commandStatus_len c V p hl]
    exact .len (.params (by decide) hp hl)

theorem hardwareError_outcome (p : List UInt8) (hp : p.length ≤ 255) :
    EvOutcome c V 0x10 p ((toHardwareError V p).mapOk .hardwareError) := by
  by_cases hl : p.length = 1
  · obtain ⟨x, rfl⟩ := hardwareError_shape p hl
    exact .ok .hardwareError
  · rw [hardwareError_len V p hl]
    exact .len (.params (by decide) hp hl)

theorem dataBufferOverflow_outcome (p : List UInt8) (hp : p.length ≤ 255) :
    EvOutcome c V 0x1A p ((toDataBufferOverflow V p).mapOk .dataBufferOverflow) := by
  by_cases hl : p.length = 1
  · obtain ⟨x, rfl⟩ := dataBufferOverflow_shape p hl
    rw [dataBufferOverflow_eq, mapOk_bind]
    cases hx : LinkType.tryFrom (VE := V.VErr) x with
    | panic => exact absurd hx (linkType_panic x)
    | err e =>
      obtain ⟨h1, rfl⟩ := (linkType_err x e).mp hx
      exact .err (.overflowLinkType rfl h1)
    | ok lt =>
      obtain rfl := (linkType_ok x lt).mp hx
      exact .ok .dataBufferOverflow
  · rw [dataBufferOverflow_len V p hl]
    exact .len (.params (by decide) hp hl)

theorem encryptionKeyRefreshComplete_outcome (p : List UInt8) (hp : p.length ≤ 255) :
    EvOutcome c V 0x30 p
      ((toEncryptionKeyRefreshComplete c V p).mapOk .encryptionKeyRefreshComplete) := by
  by_cases hl : p.length = 3
  · obtain ⟨st, h, rfl⟩ := encryptionKeyRefreshComplete_shape p hl
    rw [encryptionKeyRefreshComplete_eq, mapOk_bind]
    exact evOutcome_status c V (.first (by decide) rfl) fun s hs => .ok (.encryptionKeyRefreshComplete hs)
  · rw [encryptionKeyRefreshComplete_len c V p hl]
    exact .len (.params (by decide) hp hl)

theorem completed_outcome (p : List UInt8) (hp : p.length ≤ 255) :
    EvOutcome c V 0x13 p ((toNumberOfCompletedPackets V p).mapOk .numberOfCompletedPackets) := by
  cases p with
  | nil => exact .len .completedEmpty
  | cons n bs =>
    simp only [List.length_cons] at hp
    by_cases hl : bs.length = 4 * n.toNat
    · obtain ⟨xs, hx, rfl⟩ := pairs_shape n.toNat bs hl
      obtain rfl : n = UInt8.ofNat xs.length := by rw [hx, UInt8.ofNat_toNat]
      rw [completed_eq V xs (by omega)]
      exact .ok (.numberOfCompletedPackets ((inZeroes_iff _ _ _).mpr rfl))
    · rw [completed_len V n bs hl]
      exact .len (.completed (by omega) hl)

theorem leLen {sub : UInt8} {ps : List UInt8} {n : Nat} (h : (sub, n) ∈ fixedMeta)
    (hp : (sub :: ps).length ≤ 255) (hl : (sub :: ps).length ≠ n) :
    EvOutcome c V 0x3E (sub :: ps) (.err (.badLength (sub :: ps).length n)) := by
  have e : (sub :: ps).length = 1 + ps.length := by simp; omega
  rw [e] at hl ⊢
  rw [e] at hp
  exact .len (.leMeta h (by omega) hl)

theorem leConnectionComplete_outcome (ps : List UInt8) (hp : (0x01 :: ps).length ≤ 255) :
    EvOutcome c V 0x3E (0x01 :: ps)
      ((toLeConnectionComplete c V (0x01 :: ps)).mapOk .leConnectionComplete) := by
  by_cases hl : (0x01 :: ps).length = 19
  · obtain ⟨sub, st, h, r, k, ad, a, l, t, x, heq⟩ := leConnectionComplete_shape (0x01 :: ps) hl
    obtain ⟨rfl, rfl⟩ := List.cons.inj heq
    have e := leConnectionComplete_eq c V 0x01 st h r k ad a l t x
    have g4 : (0x01 :: st :: le16 h ++ r :: k :: ad.val.val ++ le16 a ++ le16 l ++ le16 t ++ [x])[4]? = some r := rfl
    have g5 : (0x01 :: st :: le16 h ++ r :: k :: ad.val.val ++ le16 a ++ le16 l ++ le16 t ++ [x])[5]? = some k := rfl
    have g18 : (0x01 :: st :: le16 h ++ r :: k :: ad.val.val ++ le16 a ++ le16 l ++ le16 t ++ [x])[18]? = some x := by
      obtain ⟨a0, a1, a2, a3, a4, a5, rfl⟩ := addr_cases ad
      rfl
    show EvOutcome c V 0x3E (0x01 :: st :: le16 h ++ r :: k :: ad.val.val ++ le16 a ++ le16 l ++ le16 t ++ [x])
      ((toLeConnectionComplete c V (0x01 :: st :: le16 h ++ r :: k :: ad.val.val ++ le16 a ++ le16 l ++ le16 t ++
        [x])).mapOk .leConnectionComplete)
    rw [e, mapOk_bind]
    refine evOutcome_status c V (.second (by decide) rfl) fun s hs => ?_
    rw [mapOk_bind]
    cases hr : ConnectionRole.tryFrom (VE := V.VErr) r with
    | panic => exact absurd hr (role_panic r)
    | err e =>
      obtain ⟨h1, rfl⟩ := (role_err r e).mp hr
      exact .err (.role g4 h1)
    | ok role =>
      rw [Res.bind_ok, mapOk_bind]
      cases hk : toBdAddrType k ad with
      | panic => exact absurd hk (addrType_panic k ad)
      | err e =>
        obtain ⟨h1, rfl⟩ := (addrType_err k ad e).mp hk
        exact .err (.address g5 h1)
      | ok peer =>
        rw [Res.mapErr_ok, Res.bind_ok, mapOk_bind]
        obtain rfl := (role_ok r role).mp hr
        have hpeer := (addrType_ok k ad peer).mp hk
        refine interval_bind c V (fun e lo tmo h1 h2 h3 => ?_) fun i hi => ?_
        · refine ⟨12, ?_⟩
          have := FaultAt.interval (c := c) (V := V) (pre := st :: le16 h ++ roleCode role :: k :: ad.val.val)
            (a := a) (l := l) (t := t) (ps := [x]) (by simp [le16, le, ad.val.len]) h1 h2 h3
          simpa using this
        · rw [mapOk_bind]
          cases hx : CentralClockAccuracy.tryFrom (VE := V.VErr) x with
          | panic => exact absurd hx (clock_panic x)
          | err e =>
            obtain ⟨h1, rfl⟩ := (clock_err x e).mp hx
            exact .err (.clock g18 h1)
          | ok ck =>
            obtain rfl := (clock_ok x ck).mp hx
            have := Says.leConnectionComplete (c := c) (V := V) (role := role) (peer := peer) (h := h)
              (clock := ck) hs hi
            rw [← hpeer] at this
            exact .ok this
  · rw [leConnectionComplete_len c V _ hl]
    exact leLen c V (by decide) hp hl

theorem report_outcome (ps : List UInt8) (hp : (0x02 :: ps).length ≤ 255) :
    EvOutcome c V 0x3E (0x02 :: ps) ((toLeAdvertisingReport (0x02 :: ps)).mapOk .leAdvertisingReport) := by
  cases ps with
  | nil => rw [report_one]; exact .panic .noCount
  | cons n bs =>
    simp only [List.length_cons] at hp
    rw [report_eq _ _ _ (by omega)]
    rcases reports_cases (VE := V.VErr) bs with ⟨as, h1, rfl, h2⟩ | ⟨as, ts, e, h1, rfl, h2, h3⟩ |
      ⟨as, ts, h1, rfl, h2, h3, h4⟩
    · rw [h2]
      exact .ok (.leAdvertisingReport h1 ((inZeroes_iff _ _ _).mpr rfl))
    · rw [h3]
      exact .err (.report h1 h2)
    · rw [h4]
      exact .panic (.cutReport h1 h2 h3 (by omega))

theorem leConnectionUpdateComplete_outcome (ps : List UInt8) (hp : (0x03 :: ps).length ≤ 255) :
    EvOutcome c V 0x3E (0x03 :: ps)
      ((toLeConnectionUpdateComplete c V (0x03 :: ps)).mapOk .leConnectionUpdateComplete) := by
  by_cases hl : (0x03 :: ps).length = 10
  · obtain ⟨sub, st, h, a, l, t, heq⟩ := leConnectionUpdateComplete_shape (0x03 :: ps) hl
    obtain ⟨rfl, rfl⟩ := List.cons.inj heq
    show EvOutcome c V 0x3E (0x03 :: st :: le16 h ++ le16 a ++ le16 l ++ le16 t)
      ((toLeConnectionUpdateComplete c V (0x03 :: st :: le16 h ++ le16 a ++ le16 l ++ le16 t)).mapOk
        .leConnectionUpdateComplete)
    rw [leConnectionUpdateComplete_eq, mapOk_bind]
    refine evOutcome_status c V (.second (by decide) rfl) fun s hs => ?_
    rw [mapOk_bind]
    refine interval_bind c V (fun e lo tmo h1 h2 h3 => ?_) fun i hi =>
      .ok (.leConnectionUpdateComplete hs hi)
    refine ⟨4, ?_⟩
    have := FaultAt.updateInterval (c := c) (V := V) (pre := st :: le16 h)
      (a := a) (l := l) (t := t) (ps := []) (by simp [le16, le]) h1 h2 h3
    simpa using this
  · rw [leConnectionUpdateComplete_len c V _ hl]
    exact leLen c V (by decide) hp hl

theorem leReadRemoteUsedFeaturesComplete_outcome (ps : List UInt8) (hp : (0x04 :: ps).length ≤ 255) :
    EvOutcome c V 0x3E (0x04 :: ps)
      ((toLeReadRemoteUsedFeaturesComplete c V (0x04 :: ps)).mapOk .leReadRemoteUsedFeaturesComplete) := by
  by_cases hl : (0x04 :: ps).length = 12
  · obtain ⟨sub, st, h, x, heq⟩ := leReadRemoteUsedFeaturesComplete_shape (0x04 :: ps) hl
    obtain ⟨rfl, rfl⟩ := List.cons.inj heq
    show EvOutcome c V 0x3E (0x04 :: st :: le16 h ++ le64 x)
      ((toLeReadRemoteUsedFeaturesComplete c V (0x04 :: st :: le16 h ++ le64 x)).mapOk
        .leReadRemoteUsedFeaturesComplete)
    rw [leReadRemoteUsedFeaturesComplete_eq, mapOk_bind]
    refine evOutcome_status c V (.second (by decide) rfl) fun s hs => ?_
    cases hx : fromBits c linkLayerFeature x with
    | some f =>
      obtain ⟨rfl, hd⟩ := (linkLayerFeature_some c _ _).mp hx
      exact .ok (.leReadRemoteUsedFeaturesComplete hs hd)
    | none =>
      have : ¬ ∀ j, x.toNat.testBit j = true → LeFeatureBit c j := by
        intro hd
        have := (linkLayerFeature_some c x x).mpr ⟨rfl, hd⟩
        rw [hx] at this
        cases this
      simp only [Classical.not_forall] at this
      obtain ⟨j, h1, h2⟩ := this
      exact .err (.features h1 h2)
  · rw [leReadRemoteUsedFeaturesComplete_len c V _ hl]
    exact leLen c V (by decide) hp hl

theorem leLtkRequest_outcome (ps : List UInt8) (hp : (0x05 :: ps).length ≤ 255) :
    EvOutcome c V 0x3E (0x05 :: ps) ((toLeLtkRequest V (0x05 :: ps)).mapOk .leLongTermKeyRequest) := by
  by_cases hl : (0x05 :: ps).length = 13
  · obtain ⟨sub, h, x, d, heq⟩ := leLtkRequest_shape (0x05 :: ps) hl
    obtain ⟨rfl, rfl⟩ := List.cons.inj heq
    show EvOutcome c V 0x3E (0x05 :: le16 h ++ le64 x ++ le16 d)
      ((toLeLtkRequest V (0x05 :: le16 h ++ le64 x ++ le16 d)).mapOk .leLongTermKeyRequest)
    rw [leLtkRequest_eq]
    exact .ok .leLongTermKeyRequest
  · rw [leLtkRequest_len V _ hl]
    exact leLen c V (by decide) hp hl

theorem leDataLengthChangeEvent_outcome (ps : List UInt8) (hp : (0x07 :: ps).length ≤ 255) :
    EvOutcome c V 0x3E (0x07 :: ps)
      ((toLeDataLengthChangeEvent V (0x07 :: ps)).mapOk .leDataLengthChangeEvent) := by
  by_cases hl : (0x07 :: ps).length = 11
  · obtain ⟨sub, h, a, b, d, e, heq⟩ := leDataLengthChangeEvent_shape (0x07 :: ps) hl
    obtain ⟨rfl, rfl⟩ := List.cons.inj heq
    show EvOutcome c V 0x3E (0x07 :: le16 h ++ le16 a ++ le16 b ++ le16 d ++ le16 e)
      ((toLeDataLengthChangeEvent V (0x07 :: le16 h ++ le16 a ++ le16 b ++ le16 d ++ le16 e)).mapOk
        .leDataLengthChangeEvent)
    rw [leDataLengthChangeEvent_eq]
    exact .ok .leDataLengthChangeEvent
  · rw [leDataLengthChangeEvent_len V _ hl]
    exact leLen c V (by decide) hp hl

theorem lePhyUpdateComplete_outcome (ps : List UInt8) (hp : (0x0C :: ps).length ≤ 255) :
    EvOutcome c V 0x3E (0x0C :: ps)
      ((toLePhyUpdateComplete c V (0x0C :: ps)).mapOk .lePhyUpdateComplete) := by
  by_cases hl : (0x0C :: ps).length = 6
  · obtain ⟨sub, st, h, x, y, heq⟩ := lePhyUpdateComplete_shape (0x0C :: ps) hl
    obtain ⟨rfl, rfl⟩ := List.cons.inj heq
    show EvOutcome c V 0x3E (0x0C :: st :: le16 h ++ [x, y])
      ((toLePhyUpdateComplete c V (0x0C :: st :: le16 h ++ [x, y])).mapOk .lePhyUpdateComplete)
    rw [lePhyUpdateComplete_eq, mapOk_bind]
    refine evOutcome_status c V (.second (by decide) rfl) fun s hs => ?_
    cases hx : Phy.tryFrom (VE := V.VErr) x with
    | panic => exact absurd hx (phy_panic x)
    | err e =>
      obtain ⟨h1, rfl⟩ := (phy_err x e).mp hx
      exact .err (.txPhy rfl h1)
    | ok tx =>
      cases hy : Phy.tryFrom (VE := V.VErr) y with
      | panic => exact absurd hy (phy_panic y)
      | err e =>
        obtain ⟨h1, rfl⟩ := (phy_err y e).mp hy
        exact .err (.rxPhy rfl h1)
      | ok rx =>
        obtain rfl := (phy_ok x tx).mp hx
        obtain rfl := (phy_ok y rx).mp hy
        exact .ok (.lePhyUpdateComplete hs)
  · rw [lePhyUpdateComplete_len c V _ hl]
    exact leLen c V (by decide) hp hl

theorem leMeta_outcome (p : List UInt8) (hp : p.length ≤ 255) :
    EvOutcome c V 0x3E p (toLeMetaEvent c V p) := by
  cases p with
  | nil => exact .len .metaEmpty
  | cons sub ps =>
    rw [leMeta_eq]
    split
    · rw [mapOk_def]; exact leConnectionComplete_outcome c V ps hp
    · rw [mapOk_def]; exact report_outcome c V ps hp
    · rw [mapOk_def]; exact leConnectionUpdateComplete_outcome c V ps hp
    · rw [mapOk_def]; exact leReadRemoteUsedFeaturesComplete_outcome c V ps hp
    · rw [mapOk_def]; exact leLtkRequest_outcome c V ps hp
    · rw [mapOk_def]; exact leDataLengthChangeEvent_outcome c V ps hp
    · rw [mapOk_def]; exact lePhyUpdateComplete_outcome c V ps hp
    · exact .err (.subevent (by simp [subeventCodes]; and_intros <;> assumption))

theorem dispatch_outcome (code : UInt8) (p : List UInt8) (hp : p.length ≤ 255) :
    EvOutcome c V code p (dispatch c V code p) := by
  unfold dispatch
  split
  · rw [mapOk_def]; exact connectionComplete_outcome c V p hp
  · rw [mapOk_def]; exact disconnectionComplete_outcome c V p hp
  · rw [mapOk_def]; exact encryptionChange_outcome c V p hp
  · rw [mapOk_def]; exact remoteVersionInfo_outcome c V p hp
  · rw [mapOk_def]; exact commandComplete_outcome c V p hp
  · rw [mapOk_def]; exact commandStatus_outcome c V p hp
  · rw [mapOk_def]; exact hardwareError_outcome c V p hp
  · rw [mapOk_def]; exact completed_outcome c V p hp
  · rw [mapOk_def]; exact dataBufferOverflow_outcome c V p hp
  · rw [mapOk_def]; exact encryptionKeyRefreshComplete_outcome c V p hp
  · exact leMeta_outcome c V p hp
  · cases h : V.eventNew p with
    | ok e => exact .ok (.vendor h)
    | err e => exact .err (.vendorEvent h)
    | panic => exact .vendorPanic fun hV => hV.event _ h
  · exact .err (.event (by simp [eventCodes]; and_intros <;> assumption))

/-- Completeness of decoding. -/
theorem says_ok {code : UInt8} {ps : List UInt8} {e : V.Ev} (hp : ps.length ≤ 255)
    (h : Says c V code ps e) : dispatch c V code ps = .ok e := by
  have ts {st s} (hs : StatusByte c V st s) : tryStatus c V st = .ok s := (tryStatus_ok_iff c V st s).mpr hs
  cases h with
  | connectionComplete hs =>
    show (toConnectionComplete c V _ >>= fun a => (.ok (Event.connectionComplete a) : Res V.EvErr V.Ev)) = _
    rw [connectionComplete_eq, ts hs, (linkType_ok _ _).mpr rfl, (encryptionEnabled_ok _ _).mpr rfl]; rfl
  | disconnectionComplete hs hr =>
    show (toDisconnectionComplete c V _ >>= fun a => (.ok (Event.disconnectionComplete a) : Res V.EvErr V.Ev)) = _
    rw [disconnectionComplete_eq, ts hs, (tryReason_ok_iff c V _ _).mpr hr]; rfl
  | encryptionChange hs =>
    show (toEncryptionChange c V _ >>= fun a => (.ok (Event.encryptionChange a) : Res V.EvErr V.Ev)) = _
    rw [encryptionChange_eq, ts hs, (encryption_ok _ _).mpr rfl]; rfl
  | readRemoteVersionInformationComplete hs =>
    show (toRemoteVersionInfo c V _ >>= fun a => (.ok (Event.readRemoteVersionInformationComplete a) : Res V.EvErr V.Ev)) = _
    rw [remoteVersionInfo_eq, ts hs]; rfl
  | commandComplete hr =>
    show (CommandComplete.new c V _ >>= fun a => (.ok (Event.commandComplete a) : Res V.EvErr V.Ev)) = _
    rw [commandComplete_eq, returns_ok c V hr]; rfl
  | commandCompleteVendor hv hr =>
    show (CommandComplete.new c V _ >>= fun a => (.ok (Event.commandComplete a) : Res V.EvErr V.Ev)) = _
    rename_i n o ps r
    rw [commandComplete_eq, returnParams_other c V (by rintro rfl; exact absurd hv (by unfold VendorOpcode; decide))
      (fun hk => not_vendor_of_known hk hv),
      if_neg (by rw [ne_eq, Classical.not_not]; exact (vendorOpcode_iff o).mp hv), hr]
    rfl
  | commandStatus hs =>
    show (toCommandStatus c V _ >>= fun a => (.ok (Event.commandStatus a) : Res V.EvErr V.Ev)) = _
    rw [commandStatus_eq, ts hs]; rfl
  | hardwareError => rfl
  | numberOfCompletedPackets hz =>
    show (toNumberOfCompletedPackets V _ >>= fun a => (.ok (Event.numberOfCompletedPackets a) : Res V.EvErr V.Ev)) = _
    have hl : (pairsBytes _).length ≤ NUMBER_OF_COMPLETED_PACKETS_MAX_LEN := Nat.le_of_succ_le_succ hp
    rw [completed_eq V _ hl, ← (inZeroes_iff _ _ _).mp hz]; rfl
  | dataBufferOverflow =>
    show (toDataBufferOverflow V _ >>= fun a => (.ok (Event.dataBufferOverflow a) : Res V.EvErr V.Ev)) = _
    rw [dataBufferOverflow_eq, (linkType_ok _ _).mpr rfl]; rfl
  | encryptionKeyRefreshComplete hs =>
    show (toEncryptionKeyRefreshComplete c V _ >>= fun a => (.ok (Event.encryptionKeyRefreshComplete a) : Res V.EvErr V.Ev)) = _
    rw [encryptionKeyRefreshComplete_eq, ts hs]; rfl
  | leConnectionComplete hs hi =>
    rename_i st s h role peer a l t i clock
    obtain ⟨k, b, hk⟩ : ∃ (k : UInt8) (b : BdAddr), k :: b.val.val = addrTypeBytes peer := by
      cases peer with
      | pub b => exact ⟨0, b, rfl⟩
      | random b => exact ⟨1, b, rfl⟩
    rw [← hk]
    show (toLeMetaEvent c V (0x01 :: _)) = _
    rw [leMeta_eq]
    show (toLeConnectionComplete c V (0x01 :: st :: le16 h ++ roleCode role :: k :: b.val.val ++ le16 a ++ le16 l ++
      le16 t ++ [clockCode clock]) >>= fun a => (.ok (Event.leConnectionComplete a) : Res V.EvErr V.Ev)) = _
    rw [leConnectionComplete_eq, ts hs, (role_ok _ _).mpr rfl, (addrType_ok _ _ _).mpr hk,
      (interval_ok _ _ _ _).mpr hi, (clock_ok _ _).mpr rfl]; rfl
  | leAdvertisingReport ha hz =>
    show (toLeMetaEvent c V (0x02 :: _)) = _
    rw [leMeta_eq]
    show (toLeAdvertisingReport (0x02 :: _ :: _) >>= fun a => (.ok (Event.leAdvertisingReport a) : Res V.EvErr V.Ev)) = _
    have hl : (advsBytes _).length ≤ MAX_ADVERTISING_REPORT_LEN :=
      Nat.le_of_succ_le_succ (Nat.le_of_succ_le_succ hp)
    rw [report_eq _ _ _ hl, checkLoop_ok _ ha, ← (inZeroes_iff _ _ _).mp hz]; rfl
  | leConnectionUpdateComplete hs hi =>
    rename_i st s h a l t i
    show (toLeMetaEvent c V (0x03 :: _)) = _
    rw [leMeta_eq]
    show (toLeConnectionUpdateComplete c V (0x03 :: st :: le16 h ++ le16 a ++ le16 l ++ le16 t) >>=
      fun a => (.ok (Event.leConnectionUpdateComplete a) : Res V.EvErr V.Ev)) = _
    rw [leConnectionUpdateComplete_eq, ts hs, (interval_ok _ _ _ _).mpr hi]; rfl
  | leReadRemoteUsedFeaturesComplete hs hd =>
    rename_i st s h x
    show (toLeMetaEvent c V (0x04 :: _)) = _
    rw [leMeta_eq]
    show (toLeReadRemoteUsedFeaturesComplete c V (0x04 :: st :: le16 h ++ le64 x) >>=
      fun a => (.ok (Event.leReadRemoteUsedFeaturesComplete a) : Res V.EvErr V.Ev)) = _
    rw [leReadRemoteUsedFeaturesComplete_eq, ts hs, (linkLayerFeature_some c _ _).mpr ⟨rfl, hd⟩]; rfl
  | leLongTermKeyRequest =>
    rename_i h x d
    show (toLeMetaEvent c V (0x05 :: _)) = _
    rw [leMeta_eq]
    show (toLeLtkRequest V (0x05 :: le16 h ++ le64 x ++ le16 d) >>=
      fun a => (.ok (Event.leLongTermKeyRequest a) : Res V.EvErr V.Ev)) = _
    rw [leLtkRequest_eq]; rfl
  | leDataLengthChangeEvent =>
    rename_i h a b d e
    show (toLeMetaEvent c V (0x07 :: _)) = _
    rw [leMeta_eq]
    show (toLeDataLengthChangeEvent V (0x07 :: le16 h ++ le16 a ++ le16 b ++ le16 d ++ le16 e) >>=
      fun a => (.ok (Event.leDataLengthChangeEvent a) : Res V.EvErr V.Ev)) = _
    rw [leDataLengthChangeEvent_eq]; rfl
  | lePhyUpdateComplete hs =>
    rename_i st s h tx rx
    show (toLeMetaEvent c V (0x0C :: _)) = _
    rw [leMeta_eq]
    show (toLePhyUpdateComplete c V (0x0C :: st :: le16 h ++ [phyCode tx, phyCode rx]) >>=
      fun a => (.ok (Event.lePhyUpdateComplete a) : Res V.EvErr V.Ev)) = _
    rw [lePhyUpdateComplete_eq, ts hs, (phy_ok _ _).mpr rfl, (phy_ok _ _).mpr rfl]; rfl
  | vendor h =>
    show (V.eventNew _ >>= fun a => (.ok (Event.vendor a) : Res V.EvErr V.Ev)) = _
    rw [h]; rfl

end Bt
