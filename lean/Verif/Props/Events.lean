import Verif.Lemmas.Events
import Verif.Spec.Demo

/-! # C09, C11-C13, C26: decoding of event packets -/

namespace Bt

open Spec

variable (c : Cfg) (V : Vendor)

/-! ## C09 -/

/-- **C09.** `Event::new` returns an event exactly when the packet is a wire encoding of it. -/
theorem C09_sound_and_complete (packet : List UInt8) (e : V.Ev) :
    Event.new c V packet = .ok e ↔ Encodes c V packet e := by
  constructor
  · intro h
    rcases packet_cases packet with hs | ⟨code, n, ps, rfl, hn⟩ | ⟨code, ps, rfl, hl⟩
    · rw [event_short c V packet hs] at h; cases h
    · rw [event_misframed c V code n ps hn] at h; cases h
    · rw [event_framed c V code ps hl] at h
      have := dispatch_outcome c V code ps hl
      rw [h] at this
      cases this with
      | ok hsays => exact ⟨code, ps, rfl, hl, hsays⟩
  · rintro ⟨code, ps, rfl, hl, hs⟩
    rw [event_framed c V code ps hl, says_ok c V hl hs]

example : Encodes ⟨false, false⟩ demoVendor [0x05, 4, 0x00, 0x01, 0x02, 0x13]
    (.disconnectionComplete ⟨.success, ⟨0x0201⟩, .remoteTerminationByUser⟩) :=
  (C09_sound_and_complete _ _ _ _).mp rfl

example : Event.new ⟨true, true⟩ demoVendor
    [0x3E, 19, 0x01, 0x00, 0x01, 0x00, 0x01, 0x00, 1, 2, 3, 4, 5, 6, 0x06, 0x00, 0x00, 0x00, 0x64, 0x00, 0x03] =
    .ok (.leConnectionComplete ⟨.success, ⟨1⟩, .peripheral, .pub ⟨⟨[1, 2, 3, 4, 5, 6], rfl⟩⟩,
      ⟨⟨7500000, by decide⟩, 0, ⟨1000000000, by decide⟩⟩, .ppm100⟩) := rfl

/-- **C09.** A packet encodes at most one event. -/
theorem C09_unique (packet : List UInt8) (e e' : V.Ev) (h : Encodes c V packet e)
    (h' : Encodes c V packet e') : e = e' := by
  rw [← C09_sound_and_complete] at h h'
  rw [h] at h'
  exact Res.ok.inj h'

/-- A packet whose one event is a disconnection. -/
example (e : demoVendor.Ev) (h : Encodes ⟨false, false⟩ demoVendor [0x05, 4, 0x00, 0x01, 0x02, 0x13] e) :
    e = .disconnectionComplete ⟨.success, ⟨0x0201⟩, .remoteTerminationByUser⟩ :=
  C09_unique _ _ _ _ _ h ((C09_sound_and_complete _ _ _ _).mp rfl)

/-! ## C11 -/

/-- **C11.** A packet without a full header is rejected with the actual and the required length. -/
theorem C11_short (packet : List UInt8) (h : packet.length < 2) :
    Event.new c V packet = .err (.badLength packet.length 2) := event_short c V packet h

example : Event.new ⟨false, false⟩ demoVendor [0x3E] = .err (.badLength 1 2) :=
  C11_short _ _ _ (by decide)

/-- **C11.** A packet whose length byte does not match is rejected with the actual and announced lengths. -/
theorem C11_misframed (code n : UInt8) (ps : List UInt8) (h : ps.length ≠ n.toNat) :
    Event.new c V (code :: n :: ps) = .err (.badLength (2 + ps.length) (2 + n.toNat)) :=
  event_misframed c V code n ps h

example : Event.new ⟨false, false⟩ demoVendor [0x10, 1, 0x42, 0x00] = .err (.badLength 4 3) :=
  C11_misframed _ _ _ _ _ (by decide)

/-- **C11.** Every proper prefix of an accepted packet is rejected for its length, and so is every proper
extension. -/
theorem C11_cut_or_padded (packet : List UInt8) (e : V.Ev) (h : Event.new c V packet = .ok e) :
    (∀ k < packet.length, ∃ b, k < b ∧ Event.new c V (packet.take k) = .err (.badLength k b)) ∧
    (∀ extra, extra ≠ [] → Event.new c V (packet ++ extra) =
      .err (.badLength (packet.length + extra.length) packet.length)) := by
  obtain ⟨code, ps, rfl, hl, -⟩ := (C09_sound_and_complete c V packet e).mp h
  have hn : (UInt8.ofNat ps.length).toNat = ps.length := by rw [UInt8.toNat_ofNat']; omega
  have hlen : (frame code ps).length = 2 + ps.length := by simp [frame]; omega
  constructor
  · intro k hk
    rw [hlen] at hk
    have htk : ((frame code ps).take k).length = k := by rw [List.length_take, hlen]; omega
    by_cases h2 : k < 2
    · refine ⟨2, h2, ?_⟩
      rw [event_short c V _ (by omega), htk]
    · obtain ⟨j, rfl⟩ : ∃ j, k = j + 2 := ⟨k - 2, by omega⟩
      refine ⟨2 + ps.length, by omega, ?_⟩
      have hj : (ps.take j).length = j := by rw [List.length_take]; omega
      show Event.new c V (code :: UInt8.ofNat ps.length :: ps.take j) = _
      rw [event_misframed c V _ _ _ (by omega), hj, hn, Nat.add_comm]
  · intro extra hx
    have hp : 0 < extra.length := List.length_pos_iff.mpr hx
    show Event.new c V (code :: UInt8.ofNat ps.length :: (ps ++ extra)) = _
    rw [event_misframed c V _ _ _ (by rw [List.length_append]; omega), hn, hlen, List.length_append,
      Nat.add_assoc]

example : Event.new ⟨false, false⟩ demoVendor [0x10, 1, 0x42] = .ok (.hardwareError ⟨0x42⟩) := rfl

/-! ## C12 -/

/-- **C12.** An unknown event code or LE subevent code is reported as such, and nothing else is, unless the
vendor's own decoder says so. -/
theorem C12_unknown_event (code : UInt8) (ps : List UInt8) (hl : ps.length ≤ 255) (x : UInt8) :
    Event.new c V (frame code ps) = .err (.unknownEvent x) ↔
      (code ∉ eventCodes ∧ x = code) ∨
      (code = 0x3E ∧ ∃ rest, ps = x :: rest ∧ x ∉ subeventCodes) ∨
      (code = 0xFF ∧ V.eventNew ps = .err (.unknownEvent x)) ∨
      (code = 0x0E ∧ ∃ k o rest, ps = k :: le16 o ++ rest ∧ VendorOpcode o ∧
        V.retNew ps = .err (.unknownEvent x)) := by
  rw [event_framed c V code ps hl]
  constructor
  · intro h
    have := dispatch_outcome c V code ps hl
    rw [h] at this
    cases this with
    | err hf =>
      cases hf with
      | event h' => exact .inl ⟨h', rfl⟩
      | subevent h' => exact .inr (.inl ⟨rfl, _, rfl, h'⟩)
      | report _ hr => cases hr
      | vendorEvent h' => exact .inr (.inr (.inl ⟨rfl, h'⟩))
      | vendorReturn hv h' => exact .inr (.inr (.inr ⟨rfl, _, _, _, rfl, hv, h'⟩))
  · rintro (⟨h, rfl⟩ | ⟨rfl, rest, rfl, h⟩ | ⟨rfl, h⟩ | ⟨rfl, k, o, rest, rfl, hv, h⟩)
    · unfold dispatch
      simp only [eventCodes, List.mem_cons, List.not_mem_nil, or_false, not_or] at h
      split <;> simp_all
    · show toLeMetaEvent c V (x :: rest) = _
      rw [leMeta_eq]
      simp only [subeventCodes, List.mem_cons, List.not_mem_nil, or_false, not_or] at h
      split <;> simp_all
    · show (V.eventNew ps >>= fun a => (.ok (Event.vendor a) : Res V.EvErr V.Ev)) = _
      rw [h]; rfl
    · show (CommandComplete.new c V _ >>= fun a => (.ok (Event.commandComplete a) : Res V.EvErr V.Ev)) = _
      rw [commandComplete_eq, returnParams_other c V
        (by rintro rfl; exact absurd hv (by unfold VendorOpcode; decide))
        (fun hk => not_vendor_of_known hk hv),
        if_neg (by rw [ne_eq, Classical.not_not]; exact (vendorOpcode_iff o).mp hv), h]
      rfl

example : Event.new ⟨false, false⟩ demoVendor (frame 0x3E [0x06, 1, 2]) = .err (.unknownEvent 0x06) :=
  (C12_unknown_event _ _ _ _ (by decide) _).mpr (.inr (.inl ⟨rfl, _, rfl, by decide⟩))

/-- **C12.** Every supported code occurs in an accepted packet, in every configuration and with every vendor, so
the lists are exact; what the vendor's event code carries is accepted when the vendor accepts it. -/
theorem C12_supported :
    (∀ code ∈ eventCodes, code ≠ 0xFF → ∃ ps e, Event.new c V (frame code ps) = .ok e) ∧
    (∀ ps v, ps.length ≤ 255 → V.eventNew ps = .ok v → Event.new c V (frame 0xFF ps) = .ok (.vendor v)) ∧
    (∀ sub ∈ subeventCodes, ∃ ps e, Event.new c V (frame 0x3E (sub :: ps)) = .ok e) := by
  refine ⟨?_, fun ps v hl hv => (C09_sound_and_complete _ _ _ _).mpr ⟨_, _, rfl, hl, .vendor hv⟩, ?_⟩
  · simp only [eventCodes, List.forall_mem_cons, List.not_mem_nil, false_imp_iff, implies_true, and_true]
    obtain ⟨a, b⟩ := c
    cases a <;> cases b <;>
    exact ⟨fun _ => ⟨[0, 0, 0, 0, 0, 0, 0, 0, 0, 0, 0], _, rfl⟩, fun _ => ⟨[0, 0, 0, 0], _, rfl⟩,
      fun _ => ⟨[0, 0, 0, 0], _, rfl⟩, fun _ => ⟨[0, 0, 0, 0, 0, 0, 0, 0], _, rfl⟩,
      fun _ => ⟨[0, 0, 0], _, rfl⟩, fun _ => ⟨[0, 0, 0, 0], _, rfl⟩, fun _ => ⟨[0], _, rfl⟩,
      fun _ => ⟨[0], _, (C09_sound_and_complete _ _ _ _).mpr ⟨0x13, [0], rfl, by decide,
        .numberOfCompletedPackets (xs := []) ((inZeroes_iff _ _ (by decide)).mpr rfl)⟩⟩,
      fun _ => ⟨[0], _, rfl⟩, fun _ => ⟨[0, 0, 0], _, rfl⟩,
      fun _ => ⟨[0x07, 0, 0, 0, 0, 0, 0, 0, 0, 0, 0], _, rfl⟩, fun h => absurd rfl h⟩
  · simp only [subeventCodes, List.forall_mem_cons, List.not_mem_nil, false_imp_iff, implies_true, and_true]
    obtain ⟨a, b⟩ := c
    cases a <;> cases b <;>
    exact ⟨⟨[0, 0, 0, 0, 0, 0, 0, 0, 0, 0, 0, 6, 0, 0, 0, 0x64, 0, 0], _, rfl⟩,
      ⟨[0], _, (C09_sound_and_complete _ _ _ _).mpr ⟨0x3E, [2, 0], rfl, by decide,
        .leAdvertisingReport (as := []) (by simp) ((inZeroes_iff _ _ (by decide)).mpr rfl)⟩⟩,
      ⟨[0, 0, 0, 6, 0, 0, 0, 0x64, 0], _, rfl⟩, ⟨[0, 0, 0, 0, 0, 0, 0, 0, 0, 0, 0], _, rfl⟩,
      ⟨[0, 0, 0, 0, 0, 0, 0, 0, 0, 0, 0, 0], _, rfl⟩, ⟨[0, 0, 0, 0, 0, 0, 0, 0, 0, 0], _, rfl⟩,
      ⟨[0, 0, 0, 0, 0], _, rfl⟩⟩

example : eventCodes.length = 12 ∧ subeventCodes.length = 7 := ⟨rfl, rfl⟩

/-! ## C13 -/

/-- **C13.** The packets on which decoding panics, exactly. -/
theorem C13_panics_iff (hV : VendorReturns V) (packet : List UInt8) :
    Event.new c V packet = .panic ↔ Panics c V packet := by
  constructor
  · intro h
    rcases packet_cases packet with hs | ⟨code, n, ps, rfl, hn⟩ | ⟨code, ps, rfl, hl⟩
    · rw [event_short c V packet hs] at h; cases h
    · rw [event_misframed c V code n ps hn] at h; cases h
    · rw [event_framed c V code ps hl] at h
      have := dispatch_outcome c V code ps hl
      rw [h] at this
      cases this with
      | panic hp => exact hp
      | vendorPanic hv => exact absurd hV hv
  · intro h
    cases h with
    | noStatus ho =>
      rename_i k o
      rw [event_framed c V _ _ (by simp [le16, le])]
      show (CommandComplete.new c V _ >>= fun a => (.ok (Event.commandComplete a) : Res V.EvErr V.Ev)) = _
      rw [← List.append_nil (k :: le16 o), commandComplete_eq]
      rcases (mem_openReturns c (VS := V.VStatus) (VR := V.VRet) o).mp ho with rfl | ⟨mk, hmk⟩
      · rw [whiteList_reply]; rfl
      · rw [status_reply c V hmk]; rfl
    | noSize hs =>
      rw [event_framed c V _ _ (by simp [le16, le])]
      show (CommandComplete.new c V _ >>= fun a => (.ok (Event.commandComplete a) : Res V.EvErr V.Ev)) = _
      rw [commandComplete_eq, whiteList_reply]
      simp only [(tryStatus_ok_iff c V _ _).mpr hs]
      rfl
    | noCount => rfl
    | cutReport ha h0 h9 hl =>
      rename_i n as bs
      have hl' : (advsBytes as ++ bs).length ≤ MAX_ADVERTISING_REPORT_LEN := hl
      rw [event_framed c V _ _ (by simp at hl ⊢; omega)]
      show toLeMetaEvent c V (0x02 :: n :: (advsBytes as ++ bs)) = _
      rw [leMeta_eq]
      show (toLeAdvertisingReport (0x02 :: n :: (advsBytes as ++ bs)) >>=
        fun a => (.ok (Event.leAdvertisingReport a) : Res V.EvErr V.Ev)) = _
      rw [report_eq _ _ _ hl', checkLoop_cut as ha bs h0 h9]
      rfl

/-- A reply to a reset without a status. -/
example : Event.new ⟨false, false⟩ demoVendor [0x0E, 3, 1, 0x03, 0x0C] = .panic := rfl

/-- **C13** as stated is false: a Command Complete for Reset without a status panics, whatever the vendor. -/
theorem C13_no_panic_fails : ¬ ∀ packet, Event.new c V packet ≠ .panic := by
  intro h
  exact h [0x0E, 3, 1, 0x03, 0x0C] rfl

/-- **C13**, the part that holds: outside the four packet shapes of `Spec.Panics` decoding returns.
Missing: those packets, on which `Event::new` really panics (`C13_panics_iff`). -/
theorem C13_no_panic_partial (hV : VendorReturns V) (packet : List UInt8) (h : ¬ Panics c V packet) :
    (∃ e, Event.new c V packet = .ok e) ∨ (∃ e, Event.new c V packet = .err e) := by
  rw [← C13_panics_iff c V hV] at h
  cases hn : Event.new c V packet with
  | ok e => exact .inl ⟨e, rfl⟩
  | err e => exact .inr ⟨e, rfl⟩
  | panic => exact absurd hn h

example : VendorReturns demoVendor where
  status b := by simp only [demoVendor]; split <;> simp
  event ps := by simp only [demoVendor]; split <;> simp
  ret ps := by simp [demoVendor]

example : Panics ⟨false, false⟩ demoVendor [0x3E, 5, 0x02, 1, 0, 0, 0] :=
  .cutReport (n := 1) (as := []) (bs := [0, 0, 0]) (by simp) (by decide) (by decide) (by decide)

/-! ## C26 -/

/-- **C26.** Every error is justified by the packet. -/
theorem C26_truthful (packet : List UInt8) (e : EvError V.VErr) (h : Event.new c V packet = .err e) :
    Truthful c V packet e := by
  rcases packet_cases packet with hs | ⟨code, n, ps, rfl, hn⟩ | ⟨code, ps, rfl, hl⟩
  · rw [event_short c V packet hs] at h
    cases h
    exact .inl ⟨_, _, rfl, .header hs⟩
  · rw [event_misframed c V code n ps hn] at h
    cases h
    exact .inl ⟨_, _, rfl, .framing hn⟩
  · rw [event_framed c V code ps hl] at h
    have := dispatch_outcome c V code ps hl
    rw [h] at this
    cases this with
    | len hf => exact .inl ⟨_, _, rfl, hf⟩
    | err hf => exact .inr ⟨code, ps, rfl, hl, _, hf⟩

example : Event.new ⟨false, false⟩ demoVendor [0x08, 4, 0x00, 0x01, 0x00, 0x03] =
    .err (.badEncryptionType 3) := rfl

/-- **C26.** A packet with a length fault is never accepted. -/
theorem C26_length_faults_rejected (packet : List UInt8) (a b : Nat) (h : LengthFault packet a b) :
    Event.new c V packet = .err (.badLength a b) := by
  cases h with
  | header h => exact event_short c V packet h
  | framing h => exact event_misframed c V _ _ _ h
  | params hm hp hl =>
    rename_i code ps
    rw [event_framed c V code ps hp]
    simp only [fixedParams, List.mem_cons, Prod.mk.injEq, List.not_mem_nil, or_false] at hm
    rcases hm with ⟨rfl, rfl⟩ | ⟨rfl, rfl⟩ | ⟨rfl, rfl⟩ | ⟨rfl, rfl⟩ | ⟨rfl, rfl⟩ | ⟨rfl, rfl⟩ | ⟨rfl, rfl⟩ |
      ⟨rfl, rfl⟩
    · show (toConnectionComplete c V ps >>= _) = _
      rw [connectionComplete_len c V ps hl]; rfl
    · show (toDisconnectionComplete c V ps >>= _) = _
      rw [disconnectionComplete_len c V ps hl]; rfl
    · show (toEncryptionChange c V ps >>= _) = _
      rw [encryptionChange_len c V ps hl]; rfl
    · show (toRemoteVersionInfo c V ps >>= _) = _
      rw [remoteVersionInfo_len c V ps hl]; rfl
    · show (toCommandStatus c V ps >>= _) = _
      rw [commandStatus_len c V ps hl]; rfl
    · show (toHardwareError V ps >>= _) = _
      rw [hardwareError_len V ps hl]; rfl
    · show (toDataBufferOverflow V ps >>= _) = _
      rw [dataBufferOverflow_len V ps hl]; rfl
    · show (toEncryptionKeyRefreshComplete c V ps >>= _) = _
      rw [encryptionKeyRefreshComplete_len c V ps hl]; rfl
  | completedEmpty => rfl
  | completed hp hl =>
    rename_i n ps
    rw [event_framed c V _ _ (by simp; omega)]
    show (toNumberOfCompletedPackets V (n :: ps) >>= _) = _
    rw [completed_len V n ps hl]; rfl
  | metaEmpty => rfl
  | leMeta hm hp hl =>
    rename_i sub ps
    have e : 1 + ps.length = (sub :: ps).length := by simp; omega
    rw [event_framed c V _ _ (by simp; omega)]
    rw [e] at hl ⊢
    show toLeMetaEvent c V (sub :: ps) = _
    rw [leMeta_eq]
    simp only [fixedMeta, List.mem_cons, Prod.mk.injEq, List.not_mem_nil, or_false] at hm
    rcases hm with ⟨rfl, rfl⟩ | ⟨rfl, rfl⟩ | ⟨rfl, rfl⟩ | ⟨rfl, rfl⟩ | ⟨rfl, rfl⟩ | ⟨rfl, rfl⟩
    · show (toLeConnectionComplete c V _ >>= _) = _
      rw [leConnectionComplete_len c V _ hl]; rfl
    · show (toLeConnectionUpdateComplete c V _ >>= _) = _
      rw [leConnectionUpdateComplete_len c V _ hl]; rfl
    · show (toLeReadRemoteUsedFeaturesComplete c V _ >>= _) = _
      rw [leReadRemoteUsedFeaturesComplete_len c V _ hl]; rfl
    · show (toLeLtkRequest V _ >>= _) = _
      rw [leLtkRequest_len V _ hl]; rfl
    · show (toLeDataLengthChangeEvent V _ >>= _) = _
      rw [leDataLengthChangeEvent_len V _ hl]; rfl
    · show (toLePhyUpdateComplete c V _ >>= _) = _
      rw [lePhyUpdateComplete_len c V _ hl]; rfl
  | commandComplete h =>
    rename_i ps
    rw [event_framed c V _ _ (by omega)]
    show (CommandComplete.new c V ps >>= _) = _
    rw [commandComplete_short c V ps h]; rfl
  | returns hm hp hl =>
    rename_i k o ps
    rw [event_framed c V _ _ (by simp [le16, le]; omega)]
    show (CommandComplete.new c V _ >>= _) = _
    rw [commandComplete_eq, fixed_reply c V hm, fixedParser_len c V hm ps hl]; rfl

example : LengthFault [0x0E, 4, 1, 0x09, 0x10, 0x00] 1 7 :=
  .returns (k := 1) (o := op 0x04 0x09) (ps := [0]) (by decide) (by decide) (by decide)

end Bt
