import Verif.Lemmas.LegibleResults
import Verif.Lemmas.Sessions
import Verif.Props.Debug
import Verif.Props.Reports
import Verif.Spec.Controllers
import Verif.Spec.Demo
import Verif.Spec.Log
import Verif.Props.ValidEvents

/-! # C90: what was received can be read off a log

All theorems hold of logs written with `{:?}` and of logs written with `{:#?}`: `[Style]` is either. -/

namespace Bt

open Spec

variable {c : Cfg} {V : Vendor}

theorem reply_valid {c : Cfg} {n : UInt8} {r : ReturnParameters V.VStatus V.VRet}
    (h : ValidEvent c V (.commandComplete ⟨n, r⟩)) : ValidReply c V r := by
  cases r <;> first | exact h | exact True.intro

theorem reply_debug [Style] {ε : Type} (c : Cfg) (V : Vendor) (D : VendorDebug V) (e : CommandComplete V.VStatus V.VRet) :
    e.debug (ε := ε) c D.status D.ret = .ok (fmtStruct "CommandComplete"
      [("num_hci_command_packets", fmtDec e.numHciCommandPackets.toNat),
       ("return_params", fmtVariant e.returnParams.name (replyTexts c D.status D.ret e.returnParams))]) := by
  unfold CommandComplete.debug ReturnParameters.debug
  rw [reply_fields]
  rfl

/-- The field of a received event: it can be printed, and what was printed can be read off. -/
theorem event_field_sync [Style] {ε : Type} {D : VendorDebug V} (hD : LegibleVendor D) {p q : List UInt8} {d e : V.Ev}
    (hp : Event.new c V p = .ok d) (hq : Event.new c V q = .ok e) (hi : d.ctorIdx = e.ctorIdx) :
    ∃ t u, d.field (ε := ε) c V D = .ok t ∧ e.field (ε := ε) c V D = .ok u ∧ Sync t u (SameShown d e) := by
  have vd := (C75_exactly _).mp ⟨p, hp⟩
  have ve := (C75_exactly _).mp ⟨q, hq⟩
  cases d <;> cases e <;> first | exact absurd hi (Nat.ne_of_beq_eq_false rfl) | skip
  case connectionComplete.connectionComplete a b =>
    exact ⟨_, _, rfl, rfl, (connectionComplete_sync hD.status a b).mono fun h => Or.inl (by rw [h])⟩
  case disconnectionComplete.disconnectionComplete a b =>
    exact ⟨_, _, rfl, rfl, (disconnectionComplete_sync hD.status a b).mono fun h => Or.inl (by rw [h])⟩
  case encryptionChange.encryptionChange a b =>
    exact ⟨_, _, rfl, rfl, (encryptionChange_sync hD.status a b).mono fun h => Or.inl (by rw [h])⟩
  case readRemoteVersionInformationComplete.readRemoteVersionInformationComplete a b =>
    exact ⟨_, _, rfl, rfl, (remoteVersionInformation_sync hD.status a b).mono fun h => Or.inl (by rw [h])⟩
  case commandComplete.commandComplete a b =>
    obtain ⟨m, r⟩ := a
    obtain ⟨n, r'⟩ := b
    refine ⟨_, _, reply_debug c V D _, reply_debug c V D _, (struct_sync _ (fields_cons _ (dec8_sync m n)
      (fields_one _ (reply_sync c V hD.status hD.ret r r' (reply_valid vd) (reply_valid ve))))).mono ?_⟩
    rintro ⟨rfl, rfl | ⟨s, f, g, rfl, rfl, h⟩⟩
    · exact Or.inl rfl
    · exact Or.inr ⟨_, _, _, _, rfl, rfl, h⟩
  case commandStatus.commandStatus a b =>
    exact ⟨_, _, rfl, rfl, (commandStatus_sync hD.status a b).mono fun h => Or.inl (by rw [h])⟩
  case hardwareError.hardwareError a b =>
    exact ⟨_, _, rfl, rfl, (hardwareError_sync a b).mono fun h => Or.inl (by rw [h])⟩
  case numberOfCompletedPackets.numberOfCompletedPackets a b =>
    have form {p : List UInt8} {a : NumberOfCompletedPackets}
        (h : Event.new c V p = .ok (.numberOfCompletedPackets a)) :
        ∃ xs : List (UInt16 × UInt16), p = frame 0x13 (UInt8.ofNat xs.length :: pairsBytes xs) ∧
          a.debug (ε := ε) = .ok ('{' :: (((xs.map fun x => (⟨⟨x.1⟩, x.2.toNat⟩ : NumberOfCompletedPacketsPair)).map
            NumberOfCompletedPacketsPair.debug).flatten ++ ['}'])) := by
      obtain ⟨code, ps, rfl, hl, hs⟩ := (C09_sound_and_complete c V _ _).mp h
      cases hs with
      | @numberOfCompletedPackets xs _ hz =>
        have hx : xs.length ≤ 63 := by
          have := pairsBytes_length xs
          simp only [List.length_cons] at hl
          omega
        obtain ⟨d', h1, h2⟩ := C14_every_list c V (ε := ε) xs hx
        rw [h] at h1
        cases h1
        exact ⟨xs, rfl, by unfold NumberOfCompletedPackets.debug; rw [h2]; rfl⟩
    obtain ⟨xs, rfl, h1⟩ := form hp
    obtain ⟨ys, rfl, h2⟩ := form hq
    refine ⟨_, _, h1, h2, (pairs_sync _ _).mono fun h => Or.inl ?_⟩
    have hxy : xs = ys := by
      refine List.map_inj_right ?_ |>.mp h
      rintro ⟨a, b⟩ ⟨a', b'⟩ h
      simp only [NumberOfCompletedPacketsPair.mk.injEq, ConnectionHandle.mk.injEq] at h
      exact Prod.ext h.1 (UInt16.toNat_inj.mp h.2)
    rw [hxy, hq] at hp
    exact (Res.ok.inj hp).symm
  case dataBufferOverflow.dataBufferOverflow a b =>
    exact ⟨_, _, rfl, rfl, (dataBufferOverflow_sync a b).mono fun h => Or.inl (by rw [h])⟩
  case encryptionKeyRefreshComplete.encryptionKeyRefreshComplete a b =>
    exact ⟨_, _, rfl, rfl, (encryptionKeyRefreshComplete_sync hD.status a b).mono fun h => Or.inl (by rw [h])⟩
  case leConnectionComplete.leConnectionComplete a b =>
    exact ⟨_, _, rfl, rfl, (leConnectionComplete_sync hD.status a b).mono fun h => Or.inl (by rw [h])⟩
  case leAdvertisingReport.leAdvertisingReport a b =>
    obtain ⟨n, as, h1, -, h2⟩ := C15_iteration c V (ε := ε) p a hp
    obtain ⟨m, bs, g1, -, g2⟩ := C15_iteration c V (ε := ε) q b hq
    have text {a : LeAdvertisingReport} {as : List LeAdvertisement} (h : a.iter (ε := ε) = .ok as) :
        a.debug (ε := ε) LeAdvertisement.debug = .ok ('{' :: ((as.map LeAdvertisement.debug).flatten ++ ['}'])) := by
      unfold LeAdvertisingReport.debug; rw [h]; rfl
    refine ⟨_, _, text h2, text g2, (reports_sync _ _).mono fun h => Or.inl ?_⟩
    subst h
    have hl : (advsBytes as).length ≤ 253 := by
      obtain ⟨code, ps, hf, hl, -⟩ := (C09_sound_and_complete c V _ _).mp hp
      rw [h1] at hf
      obtain ⟨-, rfl⟩ := frame_inj hf
      simp only [List.length_cons] at hl
      omega
    rw [h1, C18_count_ignored c V n m _ hl, ← g1, hq] at hp
    exact (Res.ok.inj hp).symm
  case leConnectionUpdateComplete.leConnectionUpdateComplete a b =>
    exact ⟨_, _, rfl, rfl, (leConnectionUpdateComplete_sync hD.status a b).mono fun h => Or.inl (by rw [h])⟩
  case leReadRemoteUsedFeaturesComplete.leReadRemoteUsedFeaturesComplete a b =>
    exact ⟨_, _, rfl, rfl, (leReadRemoteUsedFeaturesComplete_sync hD.status c a b vd.2 ve.2).mono
      fun h => Or.inl (by rw [h])⟩
  case leLongTermKeyRequest.leLongTermKeyRequest a b =>
    exact ⟨_, _, rfl, rfl, (leLongTermKeyRequest_sync a b).mono fun h => Or.inl (by rw [h])⟩
  case leDataLengthChangeEvent.leDataLengthChangeEvent a b =>
    exact ⟨_, _, rfl, rfl, (leDataLengthChangeEvent_sync a b).mono fun h => Or.inl (by rw [h])⟩
  case lePhyUpdateComplete.lePhyUpdateComplete a b =>
    exact ⟨_, _, rfl, rfl, (lePhyUpdateComplete_sync hD.status a b).mono fun h => Or.inl (by rw [h])⟩
  case vendor.vendor a b =>
    exact ⟨_, _, rfl, rfl, (Sync.of_legible hD.event a b).mono fun h => Or.inl (by rw [h])⟩

/-- The text of a received event: it can be printed, and what was printed can be read off. -/
theorem event_sync [Style] {ε : Type} {D : VendorDebug V} (hD : LegibleVendor D) {p q : List UInt8} {d e : V.Ev}
    (hp : Event.new c V p = .ok d) (hq : Event.new c V q = .ok e) :
    ∃ t u, d.debug (ε := ε) c V D = .ok t ∧ e.debug (ε := ε) c V D = .ok u ∧ Sync t u (SameShown d e) := by
  obtain ⟨t, _, ht, -, -⟩ := event_field_sync (ε := ε) hD hp hp rfl
  obtain ⟨u, _, hu, -, -⟩ := event_field_sync (ε := ε) hD hq hq rfl
  refine ⟨fmtVariant d.name [t], fmtVariant e.name [u], by unfold Event.debug; rw [ht]; rfl,
    by unfold Event.debug; rw [hu]; rfl, variant_name (event_word d) (event_word e) fun hn => ?_⟩
  obtain ⟨t', u', ht', hu', h⟩ := event_field_sync (ε := ε) hD hp hq
    (nodup_idx eventNames_nodup (eventNames_at d) (by rw [hn]; exact eventNames_at e))
  rw [ht] at ht'
  rw [hu] at hu'
  cases ht'
  cases hu'
  rw [hn]
  exact variant_one _ h

/-- Events that differ in unprinted octets only print alike. -/
theorem sameShown_debug [Style] {ε : Type} (D : VendorDebug V) {d e : V.Ev} (h : SameShown d e) :
    d.debug (ε := ε) c V D = e.debug c V D := by
  rcases h with rfl | ⟨n, s, f, g, rfl, rfl, h⟩
  · rfl
  · have key := sameReplyShown_text c D.status D.ret
      (r := .readLocalSupportedCommands ⟨s, f⟩) (r' := .readLocalSupportedCommands ⟨s, g⟩)
      (Or.inr ⟨s, f, g, rfl, rfl, h⟩)
    unfold Event.debug Event.field
    simp only [reply_debug, key, Event.name]

/-- **C90**, events: printing a received event does not panic, and two received events print alike exactly if they
are equal, apart from the octets of supported commands that are never printed. -/
theorem C90_events [Style] {ε : Type} {D : VendorDebug V} (hD : LegibleVendor D) (p q : List UInt8) (d e : V.Ev)
    (hp : Event.new c V p = .ok d) (hq : Event.new c V q = .ok e) :
    ∃ t u, d.debug (ε := ε) c V D = .ok t ∧ e.debug (ε := ε) c V D = .ok u ∧ (t = u ↔ SameShown d e) := by
  obtain ⟨t, u, ht, hu, h⟩ := event_sync (ε := ε) hD hp hq
  refine ⟨t, u, ht, hu, h.eq, fun hs => ?_⟩
  have := sameShown_debug (ε := ε) (c := c) D hs
  rw [ht, hu] at this
  exact Res.ok.inj this

/-- How the demonstration vendor prints its values. -/
def demoDebug : VendorDebug demoVendor :=
  ⟨fun b : UInt8 => fmtDec b.toNat, fun xs : List UInt8 => fmtSlice (fmtDec ·.toNat) xs,
    fun xs : List UInt8 => fmtSlice (fmtDec ·.toNat) xs, fun _ => "()".toList⟩

theorem demoDebug_legible : LegibleVendor demoDebug :=
  ⟨Sync.legible dec8_sync, Sync.legible bytes_sync, Sync.legible bytes_sync, fun _ _ _ _ _ _ _ => rfl⟩

theorem unit_legible : Legible fun _ : Unit => "()".toList := fun _ _ _ _ _ _ _ => rfl

open Plain in
/-- Two connections that differ in the supervision timeout, 500 ms and 1.01 s, and their texts. -/
example : ∃ d e : demoVendor.Ev,
    Event.new ⟨false, false⟩ demoVendor [0x3E, 0x0A, 0x03, 0x00, 0x01, 0x00, 0x06, 0x00, 0x00, 0x00, 0x32, 0x00] = .ok d ∧
    Event.new ⟨false, false⟩ demoVendor [0x3E, 0x0A, 0x03, 0x00, 0x01, 0x00, 0x06, 0x00, 0x00, 0x00, 0x65, 0x00] = .ok e ∧
    d.debug (ε := Empty) ⟨false, false⟩ demoVendor demoDebug =
      .ok ("LeConnectionUpdateComplete(LeConnectionUpdateComplete { status: Success, conn_handle: ConnectionHandle(1), " ++
        "conn_interval: FixedConnectionInterval { interval_: 7.5ms, conn_latency_: 0, supervision_timeout_: 500ms } })").toList ∧
    e.debug (ε := Empty) ⟨false, false⟩ demoVendor demoDebug =
      .ok ("LeConnectionUpdateComplete(LeConnectionUpdateComplete { status: Success, conn_handle: ConnectionHandle(1), " ++
        "conn_interval: FixedConnectionInterval { interval_: 7.5ms, conn_latency_: 0, supervision_timeout_: 1.01s } })").toList :=
  ⟨.leConnectionUpdateComplete ⟨.success, ⟨1⟩, ⟨⟨7500 * us, by decide⟩, 0, ⟨500 * ms, by decide⟩⟩⟩,
   .leConnectionUpdateComplete ⟨.success, ⟨1⟩, ⟨⟨7500 * us, by decide⟩, 0, ⟨1010 * ms, by decide⟩⟩⟩,
   (C09_sound_and_complete _ _ _ _).mpr ⟨_, _, rfl, by decide, .leConnectionUpdateComplete (st := 0) (a := 6) (t := 0x32)
     (show StatusByte ⟨false, false⟩ demoVendor 0 .success from rfl) ⟨by constructor <;> decide, rfl, rfl, rfl⟩⟩,
   (C09_sound_and_complete _ _ _ _).mpr ⟨_, _, rfl, by decide, .leConnectionUpdateComplete (st := 0) (a := 6) (t := 0x65)
     (show StatusByte ⟨false, false⟩ demoVendor 0 .success from rfl) ⟨by constructor <;> decide, rfl, rfl, rfl⟩⟩, by decide +kernel, by decide +kernel⟩

/-- **C90** (`uart`). Whatever the controllers do, the text of what a call of `read` returned is that of no other
result, apart from the octets of supported commands that are never printed. -/
theorem C90_uart [Style] {σ₁ σ₂ E ε : Type} {D : VendorDebug V} (hD : LegibleVendor D) {ee : E → Text} (he : Legible ee)
    (k₁ : Controller σ₁ E) (k₂ : Controller σ₂ E) (s₁ s₁' : σ₁) (s₂ s₂' : σ₂)
    (r r' : Res (Nb (UartError E V.VErr)) (UartPacket V))
    (h₁ : Uart.read c V k₁ s₁ = (r, s₁')) (h₂ : Uart.read c V k₂ s₂ = (r', s₂'))
    (n₁ : r ≠ .panic) (n₂ : r' ≠ .panic) :
    ∃ t u, Uart.debugResult (ε := ε) c V D ee r = .ok t ∧ Uart.debugResult (ε := ε) c V D ee r' = .ok u ∧
      (t = u ↔ SameUartRead r r') := by
  have word : (∀ x ∈ "Ok".toList, wordChar x = true) ∧ (∀ x ∈ "Err".toList, wordChar x = true) := by decide
  have packet (p : UartPacket V) : ∃ e, p = .event e := by cases p; exact ⟨_, rfl⟩
  have text {p : List UInt8} {e : V.Ev} {t : Text} (h : e.debug (ε := ε) c V D = .ok t) :
      Uart.debugResult (ε := ε) c V D ee (.ok (.event e)) = .ok (fmtVariant "Ok" [fmtVariant "Event" [t]]) := by
    unfold Uart.debugResult UartPacket.debug
    simp only [h]
    rfl
  cases r with
  | panic => exact absurd rfl n₁
  | ok p =>
    obtain ⟨d, rfl⟩ := packet p
    obtain ⟨p, hp⟩ := (C75_exactly d).mpr (C75_uart k₁ s₁ s₁' d h₁)
    cases r' with
    | panic => exact absurd rfl n₂
    | ok q =>
      obtain ⟨e, rfl⟩ := packet q
      obtain ⟨q, hq⟩ := (C75_exactly e).mpr (C75_uart k₂ s₂ s₂' e h₂)
      obtain ⟨t, u, ht, hu, hs⟩ := event_sync (ε := ε) hD hp hq
      refine ⟨_, _, text (p := p) ht, text (p := q) hu, fun h => ?_, fun h => ?_⟩
      · exact Or.inr ⟨d, e, rfl, rfl, (variant_one _ (variant_one _ hs)).eq h⟩
      · have hs : SameShown d e := by
          rcases h with h | ⟨d', e', h1, h2, h⟩
          · cases h; exact Or.inl rfl
          · cases h1; cases h2; exact h
        have := sameShown_debug (ε := ε) (c := c) D hs
        rw [ht, hu] at this
        rw [Res.ok.inj this]
    | err e =>
      obtain ⟨t, _, ht, -, -⟩ := event_sync (ε := ε) hD hp hp
      refine ⟨_, _, text (p := p) ht, rfl, fun h => ?_, fun h => ?_⟩
      · exact (variant_name (P := False) word.1 word.2 fun h => absurd h (by decide)).eq h |>.elim
      · rcases h with h | ⟨d', e', -, h2, -⟩
        · cases h
        · cases h2
  | err a =>
    cases r' with
    | panic => exact absurd rfl n₂
    | ok q =>
      obtain ⟨e, rfl⟩ := packet q
      obtain ⟨q, hq⟩ := (C75_exactly e).mpr (C75_uart k₂ s₂ s₂' e h₂)
      obtain ⟨t, _, ht, -, -⟩ := event_sync (ε := ε) hD hq hq
      refine ⟨_, _, rfl, text (p := q) ht, fun h => ?_, fun h => ?_⟩
      · exact (variant_name (P := False) word.2 word.1 fun h => absurd h (by decide)).eq h |>.elim
      · rcases h with h | ⟨d', e', h1, -, -⟩
        · cases h
        · cases h1
    | err b =>
      refine ⟨_, _, rfl, rfl, fun h => ?_, fun h => ?_⟩
      · have := (variant_one _ (uartNb_sync he hD.err a b)).eq h
        rw [this]
        exact Or.inl rfl
      · rcases h with h | ⟨d', e', h1, -, -⟩
        · cases h; rfl
        · cases h1

open Plain in
/-- A hardware error, a bad indicator and a packet that has not arrived, and how they print. -/
example : (Uart.debugResult (ε := Empty) ⟨false, false⟩ demoVendor demoDebug (fun _ : Unit => "()".toList)
        (Uart.read ⟨false, false⟩ demoVendor fifo ([0x04, 0x10, 0x01, 0x2A], 0)).1 =
      .ok "Ok(Event(HardwareError(HardwareError { code: 42 })))".toList) ∧
    (Uart.debugResult (ε := Empty) ⟨false, false⟩ demoVendor demoDebug (fun _ : Unit => "()".toList)
        (Uart.read ⟨false, false⟩ demoVendor fifo ([0x05, 0x10, 0x01, 0x2A], 0)).1 =
      .ok "Err(BadPacketType(5))".toList) ∧
    (Uart.debugResult (ε := Empty) ⟨false, false⟩ demoVendor demoDebug (fun _ : Unit => "()".toList)
        (Uart.read ⟨false, false⟩ demoVendor fifo ([0x04, 0x10, 0x01], 0)).1 =
      .ok "Err(WouldBlock)".toList) := by
  decide +kernel

open Pretty in
/-- The alternate form, in which a hand-written implementation prints on several lines that are indented, too. -/
example : (Uart.debugResult (ε := Empty) ⟨false, false⟩ demoVendor demoDebug (fun _ : Unit => "()".toList)
        (Uart.read ⟨false, false⟩ demoVendor fifo ([0x04, 0x10, 0x01, 0x2A], 0)).1 =
      .ok "Ok(\n    Event(\n        HardwareError(\n            HardwareError {\n                code: 42,\n            },\n        ),\n    ),\n)".toList) ∧
    EncryptedReturnParameters.debug (fun _ : Unit => "()".toList) ⟨.success, Arr.zero 16⟩ =
      ("EncryptedReturnParameters {\n    status: Success,\n    encrypted_data: AES-128 Encrypted Data " ++
        "([0, 0, 0, 0, 0, 0, 0, 0, 0, 0, 0, 0, 0, 0, 0, 0])\n    ,\n}").toList := by
  decide +kernel

/-- **C90** (`event_link`). The same of the link that carries events only. -/
theorem C90_event_link [Style] {σ₁ σ₂ E ε : Type} {D : VendorDebug V} (hD : LegibleVendor D) {ee : E → Text} (he : Legible ee)
    (k₁ : Controller σ₁ E) (k₂ : Controller σ₂ E) (s₁ s₁' : σ₁) (s₂ s₂' : σ₂)
    (r r' : Res (Nb (EventLinkError E V.VErr)) V.Ev)
    (h₁ : EventLink.read c V k₁ s₁ = (r, s₁')) (h₂ : EventLink.read c V k₂ s₂ = (r', s₂'))
    (n₁ : r ≠ .panic) (n₂ : r' ≠ .panic) :
    ∃ t u, EventLink.debugResult (ε := ε) c V D ee r = .ok t ∧ EventLink.debugResult (ε := ε) c V D ee r' = .ok u ∧
      (t = u ↔ SameLinkRead r r') := by
  have word : (∀ x ∈ "Ok".toList, wordChar x = true) ∧ (∀ x ∈ "Err".toList, wordChar x = true) := by decide
  have text {e : V.Ev} {t : Text} (h : e.debug (ε := ε) c V D = .ok t) :
      EventLink.debugResult (ε := ε) c V D ee (.ok e) = .ok (fmtVariant "Ok" [t]) := by
    unfold EventLink.debugResult
    simp only [h]
    rfl
  cases r with
  | panic => exact absurd rfl n₁
  | ok d =>
    obtain ⟨p, hp⟩ := (C75_exactly d).mpr (C75_event_link k₁ s₁ s₁' d h₁)
    cases r' with
    | panic => exact absurd rfl n₂
    | ok e =>
      obtain ⟨q, hq⟩ := (C75_exactly e).mpr (C75_event_link k₂ s₂ s₂' e h₂)
      obtain ⟨t, u, ht, hu, hs⟩ := event_sync (ε := ε) hD hp hq
      refine ⟨_, _, text ht, text hu, fun h => ?_, fun h => ?_⟩
      · exact Or.inr ⟨d, e, rfl, rfl, (variant_one _ hs).eq h⟩
      · have hs : SameShown d e := by
          rcases h with h | ⟨d', e', h1, h2, h⟩
          · cases h; exact Or.inl rfl
          · cases h1; cases h2; exact h
        have := sameShown_debug (ε := ε) (c := c) D hs
        rw [ht, hu] at this
        rw [Res.ok.inj this]
    | err e =>
      obtain ⟨t, _, ht, -, -⟩ := event_sync (ε := ε) hD hp hp
      refine ⟨_, _, text ht, rfl, fun h => ?_, fun h => ?_⟩
      · exact (variant_name (P := False) word.1 word.2 fun h => absurd h (by decide)).eq h |>.elim
      · rcases h with h | ⟨d', e', -, h2, -⟩
        · cases h
        · cases h2
  | err a =>
    cases r' with
    | panic => exact absurd rfl n₂
    | ok e =>
      obtain ⟨q, hq⟩ := (C75_exactly e).mpr (C75_event_link k₂ s₂ s₂' e h₂)
      obtain ⟨t, _, ht, -, -⟩ := event_sync (ε := ε) hD hq hq
      refine ⟨_, _, rfl, text ht, fun h => ?_, fun h => ?_⟩
      · exact (variant_name (P := False) word.2 word.1 fun h => absurd h (by decide)).eq h |>.elim
      · rcases h with h | ⟨d', e', h1, -, -⟩
        · cases h
        · cases h1
    | err b =>
      refine ⟨_, _, rfl, rfl, fun h => ?_, fun h => ?_⟩
      · have := (variant_one _ (linkNb_sync he hD.err a b)).eq h
        rw [this]
        exact Or.inl rfl
      · rcases h with h | ⟨d', e', h1, -, -⟩
        · cases h; rfl
        · cases h1

open Plain in
/-- A bad status, which the text shows. -/
example : EventLink.debugResult (ε := Empty) ⟨false, false⟩ demoVendor demoDebug (fun _ : Unit => "()".toList)
      (EventLink.read ⟨false, false⟩ demoVendor fifo ([0x05, 0x04, 0x7F, 0x01, 0x00, 0x13], 0)).1 =
    .ok "Err(BLE(BadStatus(127)))".toList := by
  decide +kernel

/-- Without `version-5-0` no bit of an unprinted octet is valid. -/
theorem sameShown_eq (hc : c.v50 = false) {d e : V.Ev} (hd : ValidEvent c V d) (hv : ValidEvent c V e)
    (h : SameShown d e) : d = e := by
  rcases h with rfl | ⟨n, s, f, g, rfl, rfl, h⟩
  · rfl
  · rw [((C59_shown_partial (ε := Empty) c hc f g (reply_valid hd).2 (reply_valid hv).2).2).mp
      ((C59_exactly f g).mpr h)]

/-- **C90 (partial)** (`uart`). The claim is that the text of what a call of `read` returned is that of no other
result. It holds in the configurations without `version-5-0`. Missing: `version-5-0`, where it is false
(`C90_not_told_apart`); what holds there is `C90_uart`. -/
theorem C90_uart_partial [Style] {σ₁ σ₂ E ε : Type} (hc : c.v50 = false) {D : VendorDebug V} (hD : LegibleVendor D)
    {ee : E → Text} (he : Legible ee) (k₁ : Controller σ₁ E) (k₂ : Controller σ₂ E) (s₁ s₁' : σ₁) (s₂ s₂' : σ₂)
    (r r' : Res (Nb (UartError E V.VErr)) (UartPacket V))
    (h₁ : Uart.read c V k₁ s₁ = (r, s₁')) (h₂ : Uart.read c V k₂ s₂ = (r', s₂'))
    (n₁ : r ≠ .panic) (n₂ : r' ≠ .panic) :
    ∃ t u, Uart.debugResult (ε := ε) c V D ee r = .ok t ∧ Uart.debugResult (ε := ε) c V D ee r' = .ok u ∧
      (t = u ↔ r = r') := by
  obtain ⟨t, u, ht, hu, h⟩ := C90_uart (ε := ε) hD he k₁ k₂ s₁ s₁' s₂ s₂' r r' h₁ h₂ n₁ n₂
  refine ⟨t, u, ht, hu, fun e => ?_, fun e => h.mpr (Or.inl e)⟩
  rcases h.mp e with e | ⟨d, e, rfl, rfl, hs⟩
  · exact e
  · rw [sameShown_eq hc (C75_uart k₁ s₁ s₁' d h₁) (C75_uart k₂ s₂ s₂' e h₂) hs]

open Plain in
set_option maxRecDepth 4000 in
/-- The hypotheses are met by two queues: the texts differ since the hardware codes do. -/
example : ∃ t u, Uart.debugResult (ε := Empty) ⟨true, false⟩ demoVendor demoDebug (fun _ : Unit => "()".toList)
      (Uart.read ⟨true, false⟩ demoVendor fifo ([0x04, 0x10, 0x01, 0x2A], 0)).1 = .ok t ∧
    Uart.debugResult (ε := Empty) ⟨true, false⟩ demoVendor demoDebug (fun _ : Unit => "()".toList)
      (Uart.read ⟨true, false⟩ demoVendor fifo ([0x04, 0x10, 0x01, 0x2B], 0)).1 = .ok u ∧ t ≠ u := by
  obtain ⟨t, u, ht, hu, h⟩ := C90_uart_partial (c := ⟨true, false⟩) (ε := Empty) rfl demoDebug_legible unit_legible
    fifo fifo ([0x04, 0x10, 0x01, 0x2A], 0) _ ([0x04, 0x10, 0x01, 0x2B], 0) _
    (.ok (.event (.hardwareError ⟨0x2A⟩))) (.ok (.event (.hardwareError ⟨0x2B⟩))) rfl rfl
    (by rintro ⟨⟩) (by rintro ⟨⟩)
  exact ⟨t, u, ht, hu, fun e => absurd (h.mp e) (by rintro ⟨⟩)⟩

/-- **C90 (partial)** (`event_link`). The same of the link that carries events only. -/
theorem C90_event_link_partial [Style] {σ₁ σ₂ E ε : Type} (hc : c.v50 = false) {D : VendorDebug V} (hD : LegibleVendor D)
    {ee : E → Text} (he : Legible ee) (k₁ : Controller σ₁ E) (k₂ : Controller σ₂ E) (s₁ s₁' : σ₁) (s₂ s₂' : σ₂)
    (r r' : Res (Nb (EventLinkError E V.VErr)) V.Ev)
    (h₁ : EventLink.read c V k₁ s₁ = (r, s₁')) (h₂ : EventLink.read c V k₂ s₂ = (r', s₂'))
    (n₁ : r ≠ .panic) (n₂ : r' ≠ .panic) :
    ∃ t u, EventLink.debugResult (ε := ε) c V D ee r = .ok t ∧ EventLink.debugResult (ε := ε) c V D ee r' = .ok u ∧
      (t = u ↔ r = r') := by
  obtain ⟨t, u, ht, hu, h⟩ := C90_event_link (ε := ε) hD he k₁ k₂ s₁ s₁' s₂ s₂' r r' h₁ h₂ n₁ n₂
  refine ⟨t, u, ht, hu, fun e => ?_, fun e => h.mpr (Or.inl e)⟩
  rcases h.mp e with e | ⟨d, e, rfl, rfl, hs⟩
  · exact e
  · rw [sameShown_eq hc (C75_event_link k₁ s₁ s₁' d h₁) (C75_event_link k₂ s₂ s₂' e h₂) hs]

open Plain in
set_option maxRecDepth 4000 in
/-- The same over the link that carries events only. -/
example : ∃ t u, EventLink.debugResult (ε := Empty) ⟨true, false⟩ demoVendor demoDebug (fun _ : Unit => "()".toList)
      (EventLink.read ⟨true, false⟩ demoVendor fifo ([0x10, 0x01, 0x2A], 0)).1 = .ok t ∧
    EventLink.debugResult (ε := Empty) ⟨true, false⟩ demoVendor demoDebug (fun _ : Unit => "()".toList)
      (EventLink.read ⟨true, false⟩ demoVendor fifo ([0x10, 0x01], 0)).1 = .ok u ∧ t ≠ u := by
  obtain ⟨t, u, ht, hu, h⟩ := C90_event_link_partial (c := ⟨true, false⟩) (ε := Empty) rfl demoDebug_legible unit_legible
    fifo fifo ([0x10, 0x01, 0x2A], 0) _ ([0x10, 0x01], 0) _ (.ok (.hardwareError ⟨0x2A⟩)) (.err .wouldBlock) rfl rfl (by rintro ⟨⟩) (by rintro ⟨⟩)
  exact ⟨t, u, ht, hu, fun e => absurd (h.mp e) (by rintro ⟨⟩)⟩

/-- **C90, negation.** With `version-5-0`, whatever the vendor, two replies to Read Local Supported Commands differ
and print alike. -/
theorem C90_not_told_apart [Style] {ε : Type} (hc : c.v50 = true) (D : VendorDebug V) :
    ∃ (p q : List UInt8) (d e : V.Ev), Event.new c V p = .ok d ∧ Event.new c V q = .ok e ∧ d ≠ e ∧
      d.debug (ε := ε) c V D = e.debug c V D := by
  obtain ⟨f, g, hf, hg, -, hne, h⟩ := C59_octet_39_dropped (ε := Empty) c hc
  rw [C59_exactly] at h
  have out (f : CommandFlags) (hf : ∀ i j, HasBit f.arr.val i j → CommandBit c i j) :
      ∃ p, Event.new c V p = .ok (.commandComplete ⟨1, .readLocalSupportedCommands ⟨.success, f⟩⟩) :=
    (C75_exactly _).mpr ⟨⟨0, by unfold statusCount; split <;> decide, rfl⟩, hf⟩
  obtain ⟨p, hp⟩ := out f hf
  obtain ⟨q, hq⟩ := out g hg
  refine ⟨p, q, _, _, hp, hq, fun e => hne ?_, sameShown_debug D (Or.inr ⟨_, _, _, _, rfl, rfl, h⟩)⟩
  simp only [Event.commandComplete.injEq, CommandComplete.mk.injEq, ReturnParameters.readLocalSupportedCommands.injEq,
    LocalSupportedCommands.mk.injEq, true_and] at e
  exact e

example : (⟨true, true⟩ : Cfg).v50 = true := rfl

end Bt
