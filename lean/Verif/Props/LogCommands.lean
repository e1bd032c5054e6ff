import Verif.Lemmas.LegibleHost
import Verif.Props.Commands
import Verif.Props.Log

/-! # C91: the parameters of commands and the reasons of failures can be read off a log

All theorems hold of logs written with `{:?}` and of logs written with `{:#?}`: `[Style]` is either. -/

namespace Bt

open Spec

/-! ## Parameters -/

/-- **C91.** The text of advertising parameters is that of no others. A channel map has the bits 0, 1 and 2. -/
theorem C91_advertising_parameters [Style] (c : Cfg) (p q : AdvertisingParameters) (hp : p.advertisingChannelMap.toNat < 8)
    (hq : q.advertisingChannelMap.toNat < 8) : p.debug c = q.debug c ↔ p = q :=
  ⟨(advertisingParameters_sync c p q hp hq).eq, fun h => by rw [h]⟩

open Plain in
/-- Parameters that differ in the channel map. -/
example :
    let p : AdvertisingParameters :=
      ⟨⟨⟨20 * ms, by decide⟩, ⟨1280 * ms, by decide⟩, .connectableUndirected⟩, .privateFallbackRandom,
        .random ⟨[1, 2, 3, 4, 5, 6], rfl⟩, 5, .whiteListConnectionAndScan⟩
    p.debug ⟨false, false⟩ =
        ("AdvertisingParameters { advertising_interval: AdvertisingInterval { interval: (20ms, 1.28s), " ++
          "_advertising_type: ConnectableUndirected }, own_address_type: PrivateFallbackRandom, " ++
          "peer_address: Random(BdAddr([1, 2, 3, 4, 5, 6])), advertising_channel_map: CH_37 | CH_39, " ++
          "advertising_filter_policy: WhiteListConnectionAndScan }").toList ∧
      p.debug ⟨false, false⟩ ≠ AdvertisingParameters.debug ⟨false, false⟩ { p with advertisingChannelMap := 7 } := by
  refine ⟨by decide +kernel, fun h => ?_⟩
  have := (C91_advertising_parameters _ _ _ (by decide) (by decide)).mp h
  exact absurd (congrArg AdvertisingParameters.advertisingChannelMap this) (by decide)

open Pretty in
/-- The alternate form. -/
example : AdvertisingParameters.debug ⟨false, false⟩
      ⟨⟨⟨20 * ms, by decide⟩, ⟨1280 * ms, by decide⟩, .connectableUndirected⟩, .privateFallbackRandom,
        .random ⟨[1, 2, 3, 4, 5, 6], rfl⟩, 5, .whiteListConnectionAndScan⟩ =
    ("AdvertisingParameters {\n    advertising_interval: AdvertisingInterval {\n        interval: (\n" ++
      "            20ms,\n            1.28s,\n        ),\n        _advertising_type: ConnectableUndirected,\n    },\n" ++
      "    own_address_type: PrivateFallbackRandom,\n    peer_address: Random(\n        BdAddr(\n            [\n" ++
      "                1,\n                2,\n                3,\n                4,\n                5,\n" ++
      "                6,\n            ],\n        ),\n    ),\n    advertising_channel_map: CH_37 | CH_39,\n" ++
      "    advertising_filter_policy: WhiteListConnectionAndScan,\n}").toList := by decide +kernel

/-- **C91.** The text of scan parameters is that of no others. -/
theorem C91_scan_parameters [Style] (p q : ScanParameters) : p.debug = q.debug ↔ p = q :=
  ⟨(scanParameters_sync p q).eq, fun h => by rw [h]⟩

open Plain in
example : ScanParameters.debug ⟨.active, ⟨⟨10 * ms, by decide⟩, ⟨2500 * us, by decide⟩⟩, .random, .addressedToThisDevice⟩ =
    ("ScanParameters { scan_type: Active, scan_window: ScanWindow { interval_width: 10ms, window_width: 2.5ms }, " ++
      "own_address_type: Random, filter_policy: AddressedToThisDevice }").toList := by decide +kernel

/-- **C91.** The text of connection parameters is that of no others. -/
theorem C91_connection_parameters [Style] (p q : ConnectionParameters) : p.debug = q.debug ↔ p = q :=
  ⟨(connectionParameters_sync p q).eq, fun h => by rw [h]⟩

open Plain in
example : ConnectionParameters.debug ⟨⟨⟨10 * ms, by decide⟩, ⟨2500 * us, by decide⟩⟩, .useAddress,
      .publicDeviceAddress ⟨[1, 2, 3, 4, 5, 6], rfl⟩, .pub,
      ⟨⟨50 * ms, by decide⟩, ⟨500 * ms, by decide⟩, 10, ⟨15000 * ms, by decide⟩⟩,
      ⟨⟨200 * ms, by decide⟩, ⟨500 * ms, by decide⟩⟩⟩ =
    ("ConnectionParameters { scan_window: ScanWindow { interval_width: 10ms, window_width: 2.5ms }, " ++
      "initiator_filter_policy: UseAddress, peer_address: PublicDeviceAddress(BdAddr([1, 2, 3, 4, 5, 6])), " ++
      "own_address_type: Public, conn_interval: ConnectionInterval { interval_: (50ms, 500ms), conn_latency_: 10, " ++
      "supervision_timeout_: 15s }, expected_connection_length: ExpectedConnectionLength { range: (200ms, 500ms) } }").toList := by
  decide +kernel

/-- **C91.** The text of an event mask is that of no other of its kind. -/
theorem C91_masks [Style] (c : Cfg) (t : List FlagDecl) (ht : t = eventFlags ∨ t = leEventFlags) (m n : UInt64)
    (hm : ∀ j, m.toNat.testBit j = true → Declared64 c t j) (hn : ∀ j, n.toNat.testBit j = true → Declared64 c t j) :
    fmtFlags c t m = fmtFlags c t n ↔ m = n := by
  rcases ht with rfl | rfl
  · exact ⟨(flags_sync eventFlags_sound hm hn).eq, fun h => by rw [h]⟩
  · exact ⟨(flags_sync leEventFlags_sound hm hn).eq, fun h => by rw [h]⟩

open Plain in
example : (∀ j, (0x21 : UInt64).toNat.testBit j = true → Declared64 ⟨false, false⟩ leEventFlags j) ∧
    fmtFlags ⟨false, false⟩ leEventFlags 0x21 = "CONNECTION_COMPLETE | REMOTE_CONNECTION_PARAMETER_REQUEST".toList := by
  refine ⟨fun j hj => ?_, by decide +kernel⟩
  have hlt : j < 64 := by
    by_contra h
    rw [Nat.testBit_lt_two_pow (Nat.lt_of_lt_of_le (UInt64.toNat_lt _)
      (Nat.pow_le_pow_right (by decide) (by omega)))] at hj
    cases hj
  revert hj
  have all : ∀ j < 64, (0x21 : UInt64).toNat.testBit j = true → Declared64 ⟨false, false⟩ leEventFlags j := by
    decide +kernel
  exact all j hlt

/-- **C91.** The names of the payloads of tests, of the kinds of transmit power and of the types of advertising data
are told apart. -/
theorem C91_names [Style] : (∀ a b : TestPacketPayload, a.debug = b.debug ↔ a = b) ∧
    (∀ a b : TxPowerLevel, a.debug = b.debug ↔ a = b) ∧ (∀ a b : CommonDataType, a.debug = b.debug ↔ a = b) :=
  ⟨fun a b => ⟨(testPacketPayload_sync a b).eq, fun h => by rw [h]⟩,
   fun a b => ⟨(txPowerLevel_sync a b).eq, fun h => by rw [h]⟩,
   fun a b => ⟨(commonDataType_sync a b).eq, fun h => by rw [h]⟩⟩

open Plain in
example : TestPacketPayload.debug .bits10 = "Bits10".toList ∧
    CommonDataType.debug .completeLocalName = "CompleteLocalName".toList := ⟨rfl, rfl⟩

/-- **C91.** The text of a single flag of a bit field is that of no other of its kind. -/
theorem C91_flags [Style] (n : String) (a b : BFlag) : a.debug n = b.debug n ↔ a = b :=
  ⟨(bflag_sync n a b).eq, fun h => by rw [h]⟩

open Plain in
example : BFlag.debug "ChannelFlag" ⟨4, 0x10⟩ = "ChannelFlag { octet: 4, mask: 16 }".toList := by decide +kernel

/-! ## What the constructors of parameters return -/

section

variable {ε : Type}

/-- **C91.** The text of what an attempt to make an advertising interval gave is that of nothing else. -/
theorem C91_advertising_interval [Style] (r r' : Res AdvertisingIntervalError AdvertisingInterval) (n : r ≠ .panic)
    (n' : r' ≠ .panic) :
    ∃ t u, fmtResult (ε' := ε) AdvertisingInterval.debug AdvertisingIntervalError.debug r = .ok t ∧
      fmtResult (ε' := ε) AdvertisingInterval.debug AdvertisingIntervalError.debug r' = .ok u ∧ (t = u ↔ r = r') :=
  fmtResult_iff r r' n n' (fun a b _ _ h => (variant_one _ (advertisingInterval_sync a b)).eq h)
    (fun a b _ _ h => (variant_one _ (advIntervalError_sync a b)).eq h)

open Plain in
example : fmtResult (ε' := Empty) AdvertisingInterval.debug AdvertisingIntervalError.debug
      ((AdvertisingInterval.forType .connectableUndirected).withRange ⟨false, false⟩ ⟨19 * ms, by decide⟩ ⟨30 * ms, by decide⟩) =
    .ok "Err(TooShort(19ms))".toList := by decide +kernel

/-- **C91.** The text of what an attempt to make a scan window gave is that of nothing else. -/
theorem C91_scan_window [Style] (r r' : Res ScanWindowError ScanWindow) (n : r ≠ .panic) (n' : r' ≠ .panic) :
    ∃ t u, fmtResult (ε' := ε) ScanWindow.debug ScanWindowError.debug r = .ok t ∧
      fmtResult (ε' := ε) ScanWindow.debug ScanWindowError.debug r' = .ok u ∧ (t = u ↔ r = r') :=
  fmtResult_iff r r' n n' (fun a b _ _ h => (variant_one _ (scanWindow_sync a b)).eq h)
    (fun a b _ _ h => (variant_one _ (scanWindowError_sync a b)).eq h)

open Plain in
example : fmtResult (ε' := Empty) ScanWindow.debug ScanWindowError.debug
      (ScanWindowBuilder.openFor ⟨⟨10 * ms, by decide⟩⟩ ⟨11 * ms, by decide⟩) =
    .ok "Err(Inverted { interval: 10ms, window: 11ms })".toList := by decide +kernel

/-- **C91.** The text of what an attempt to make an expected connection length gave is that of nothing else. -/
theorem C91_expected_length [Style] (r r' : Res ExpectedConnectionLengthError ExpectedConnectionLength) (n : r ≠ .panic)
    (n' : r' ≠ .panic) :
    ∃ t u, fmtResult (ε' := ε) ExpectedConnectionLength.debug ExpectedConnectionLengthError.debug r = .ok t ∧
      fmtResult (ε' := ε) ExpectedConnectionLength.debug ExpectedConnectionLengthError.debug r' = .ok u ∧
      (t = u ↔ r = r') :=
  fmtResult_iff r r' n n' (fun a b _ _ h => (variant_one _ (expectedLength_sync a b)).eq h)
    (fun a b _ _ h => (variant_one _ (lengthError_sync a b)).eq h)

open Plain in
example : fmtResult (ε' := Empty) ExpectedConnectionLength.debug ExpectedConnectionLengthError.debug
      (ExpectedConnectionLength.new ⟨2 * ms, by decide⟩ ⟨1 * ms, by decide⟩) =
    .ok "Err(Inverted(2ms, 1ms))".toList := by decide +kernel

/-- **C91.** The text of what an attempt to make a connection interval gave is that of nothing else. -/
theorem C91_connection_interval [Style] (r r' : Res ConnectionIntervalError ConnectionInterval) (n : r ≠ .panic)
    (n' : r' ≠ .panic) :
    ∃ t u, fmtResult (ε' := ε) ConnectionInterval.debug ConnectionIntervalError.debug r = .ok t ∧
      fmtResult (ε' := ε) ConnectionInterval.debug ConnectionIntervalError.debug r' = .ok u ∧ (t = u ↔ r = r') :=
  fmtResult_iff r r' n n' (fun a b _ _ h => (variant_one _ (connectionInterval_sync a b)).eq h)
    (fun a b _ _ h => (variant_one _ (intervalError_sync a b)).eq h)

open Plain in
example : fmtResult (ε' := Empty) ConnectionInterval.debug ConnectionIntervalError.debug
      ConnectionIntervalBuilder.new.build = .ok "Err(Incomplete)".toList := by decide +kernel

end

/-! ## What commands return -/

/-- **C91.** Whatever the controllers do, the text of what a command returned is that of no other result of a command
with the same type of errors. Methods that return the controller's own errors are told apart from those that have to be
tried again only if no such error is printed as `WouldBlock`. -/
theorem C91_results [Style] {σ₁ σ₂ E VS ε : Type} (c : Cfg) (l₁ l₂ : Link) (k₁ : Controller σ₁ E) (k₂ : Controller σ₂ E)
    (vinto : VS → UInt8) {ee : E → Text} {vs : VS → Text} (he : Legible ee) (hv : Legible vs)
    (cmd₁ cmd₂ : Command VS) (hc₁ : cmd₁.Constructible c) (hc₂ : cmd₂.Constructible c)
    (same : cmd₁.ownErrors = cmd₂.ownErrors) (hw : cmd₁.ownErrors = false → ∀ e, ee e ≠ "WouldBlock".toList)
    (s₁ s₁' : σ₁) (s₂ s₂' : σ₂) (r₁ r₂ : Res (Nb (HostError E VS)) Unit)
    (h₁ : cmd₁.exec (linkHeader l₁) k₁ vinto s₁ = (r₁, s₁')) (h₂ : cmd₂.exec (linkHeader l₂) k₂ vinto s₂ = (r₂, s₂'))
    (n₁ : r₁ ≠ .panic) (n₂ : r₂ ≠ .panic) :
    ∃ t u, cmd₁.debugResult (ε := ε) c ee vs r₁ = .ok t ∧ cmd₂.debugResult (ε := ε) c ee vs r₂ = .ok u ∧
      (t = u ↔ r₁ = r₂) := by
  have known {σ : Type} {l : Link} {k : Controller σ E} {cmd : Command VS} (hc : cmd.Constructible c) {s s' : σ}
      {r : Res (Nb (HostError E VS)) Unit} (h : cmd.exec (linkHeader l) k vinto s = (r, s')) (e : HostError E VS)
      (hr : r = .err (.other e)) : e.MapKnown ∧ (cmd.ownErrors = false → ∃ x, e = .comm x) := by
    by_cases hx : ∃ x, e = .comm x
    · obtain ⟨x, rfl⟩ := hx
      exact ⟨True.intro, fun _ => ⟨x, rfl⟩⟩
    · have hx' : ∀ x, e ≠ .comm x := fun x h => hx ⟨x, h⟩
      have := (C40_conditions c l k vinto cmd hc e hx' s).mp (by rw [h]; exact hr)
      rcases this with ⟨_, _, rfl, rfl, -⟩ | ⟨_, rfl, rfl, -⟩ | ⟨_, rfl, rfl, -⟩ | ⟨_, rfl | rfl, rfl, -⟩ |
        ⟨_, rfl, rfl, -⟩ | ⟨_, rfl | ⟨_, _, rfl⟩, rfl, -⟩ | ⟨_, _, _, rfl, rfl, -⟩ <;>
        exact ⟨by first | exact True.intro | exact Nat.zero_lt_succ 7, fun h => by cases h⟩
  unfold Command.debugResult
  rw [← same]
  refine fmtResult_iff r₁ r₂ n₁ n₂ (fun _ _ _ _ _ => rfl) fun a b ha hb h => ?_
  cases ho : cmd₁.ownErrors with
  | true =>
    rw [ho] at h
    exact (variant_one _ (hostNb_sync c he hv a b (fun e h => (known hc₁ h₁ e (by rw [ha, h])).1)
      (fun e h => (known hc₂ h₂ e (by rw [hb, h])).1))).eq h
  | false =>
    rw [ho] at h
    have inner {t u : Text} (h : fmtVariant "Err" [t] = fmtVariant "Err" [u]) : t = u := by
      simp only [fmtVariant, fmtTuple, fmtItems, id] at h
      split at h
      · have h := (List.cons.inj (List.cons.inj (List.append_cancel_left h)).2).2
        exact List.append_cancel_right (pad_end (by decide) _ _ _ (linesEnd_lines [t]) (linesEnd_lines [u]) h).1
      · exact List.append_cancel_right (List.cons.inj (List.append_cancel_left h)).2
    have h := inner h
    cases a with
    | wouldBlock =>
      cases b with
      | wouldBlock => rfl
      | other b =>
        obtain ⟨x, rfl⟩ := (known hc₂ h₂ b hb).2 (by rw [← same, ho])
        exact absurd h.symm (hw ho x)
    | other a =>
      obtain ⟨x, rfl⟩ := (known hc₁ h₁ a ha).2 ho
      cases b with
      | wouldBlock => exact absurd h (hw ho x)
      | other b =>
        obtain ⟨y, rfl⟩ := (known hc₂ h₂ b hb).2 (by rw [← same, ho])
        have h : ee x = ee y := h
        rw [he x y [] [] (Or.inl rfl) (Or.inl rfl) (by rw [h])]

open Plain in
/-- Two failed tests: a channel and a length out of range. -/
example :
    Command.debugResult (E := Unit) (VS := UInt8) (ε := Empty) ⟨false, false⟩ (fun _ => "()".toList) (fmtDec ·.toNat)
      (.leReceiverTest 40) ((Command.exec uartHeader ⟨fun _ _ s => (.ok (), s), fun _ s => (.err .wouldBlock, s),
        fun _ s => (.err .wouldBlock, s)⟩ id (.leReceiverTest 40) ()).1) =
      .ok "Err(InvalidTestChannel(40))".toList := by decide +kernel

open Plain in
/-- Over two transports, a rejected channel and a controller that failed are told apart. -/
example (c : Cfg) : ∃ t u,
    Command.debugResult (E := Unit) (VS := UInt8) (ε := Empty) c (fun _ => "()".toList) (fmtDec ·.toNat)
      (.leReceiverTest 40) (.err (.other (.invalidTestChannel 40))) = .ok t ∧
    Command.debugResult (E := Unit) (VS := UInt8) (ε := Empty) c (fun _ => "()".toList) (fmtDec ·.toNat)
      (.leTransmitterTest 39 37 .all0) (.err (.other (.comm ()))) = .ok u ∧ t ≠ u := by
  obtain ⟨t, u, ht, hu, h⟩ := C91_results (σ₁ := Unit) (σ₂ := Unit) (E := Unit) (VS := UInt8) (ε := Empty) c .uart .cmdLink
    ⟨fun _ _ s => (.ok (), s), fun _ s => (.err .wouldBlock, s), fun _ s => (.err .wouldBlock, s)⟩
    ⟨fun _ _ s => (.err (.other ()), s), fun _ s => (.err .wouldBlock, s), fun _ s => (.err .wouldBlock, s)⟩ id
    unit_legible (Sync.legible dec8_sync) (.leReceiverTest 40) (.leTransmitterTest 39 37 .all0) trivial trivial rfl
    (fun h => by cases h) () () () () _ _ rfl rfl (by decide) (by decide)
  exact ⟨t, u, ht, hu, fun e => absurd (h.mp e) (by decide)⟩

/-- **C91**, why the condition on `WouldBlock` is there: an error of the controller with that text, legible as it is, is
logged by `reset` like a controller that was busy. -/
theorem C91_would_block_needed [Style] :
    ∃ (ee : Unit → Text) (busy broken : Controller Unit Unit), Legible ee ∧
      (Command.exec (VS := Unit) uartHeader busy (fun _ => 0) .reset ()).1 = .err .wouldBlock ∧
      (Command.exec (VS := Unit) uartHeader broken (fun _ => 0) .reset ()).1 = .err (.other (.comm ())) ∧
      ∀ c : Cfg, Command.debugResult (E := Unit) (VS := Unit) (ε := Empty) c ee (fun _ => "()".toList) .reset
          (.err .wouldBlock) =
        Command.debugResult (E := Unit) (VS := Unit) (ε := Empty) c ee (fun _ => "()".toList) .reset
          (.err (.other (.comm ()))) :=
  ⟨fun _ => "WouldBlock".toList,
   ⟨fun _ _ s => (.err .wouldBlock, s), fun _ s => (.err .wouldBlock, s), fun _ s => (.err .wouldBlock, s)⟩,
   ⟨fun _ _ s => (.err (.other ()), s), fun _ s => (.err (.other ()), s), fun _ s => (.err (.other ()), s)⟩,
   fun _ _ _ _ _ _ _ => rfl, rfl, rfl, fun _ => rfl⟩

end Bt
