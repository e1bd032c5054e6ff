import Verif.Lemmas.ReportHelper
import Verif.Props.Events

/-! # C14-C19: numbers of completed packets and LE advertising reports -/

namespace Bt

open Spec

variable (c : Cfg) (V : Vendor) {ε : Type}

/-! ## C14 -/

/-- **C14.** A Number Of Completed Packets event is accepted exactly when its parameters are a count `n`
followed by `4 * n` bytes. -/
theorem C14_accepted_iff (ps : List UInt8) (hl : ps.length ≤ 255) :
    (∃ e, Event.new c V (frame 0x13 ps) = .ok e) ↔ ∃ n rest, ps = n :: rest ∧ rest.length = 4 * n.toNat := by
  constructor
  · rintro ⟨e, h⟩
    obtain ⟨code, ps', hf, -, hs⟩ := (C09_sound_and_complete c V _ e).mp h
    obtain ⟨rfl, rfl⟩ := frame_inj hf
    cases hs with
    | numberOfCompletedPackets hz =>
      rename_i xs buf
      have := pairsBytes_length xs
      refine ⟨_, _, rfl, ?_⟩
      simp only [List.length_cons] at hl
      rw [this, UInt8.toNat_ofNat']
      omega
  · rintro ⟨n, rest, rfl, h⟩
    obtain ⟨xs, hx, rfl⟩ := pairs_shape n.toNat rest h
    obtain rfl : n = UInt8.ofNat xs.length := by rw [hx, UInt8.ofNat_toNat]
    have hp : (pairsBytes xs).length ≤ NUMBER_OF_COMPLETED_PACKETS_MAX_LEN := by
      simp only [List.length_cons] at hl
      show _ ≤ 254
      omega
    have hz := (inZeroes_iff (zeroPadded _ (pairsBytes xs) hp) _ hp).mpr rfl
    exact ⟨_, (C09_sound_and_complete c V _ _).mpr ⟨_, _, rfl, hl, .numberOfCompletedPackets hz⟩⟩

/-- Two pairs announced, two pairs and a half sent. -/
example : ¬ ∃ e, Event.new ⟨false, false⟩ demoVendor (frame 0x13 [2, 1, 2, 3, 4, 5, 6, 7, 8, 9, 10]) = .ok e := by
  rw [C14_accepted_iff _ _ _ (by decide)]
  rintro ⟨n, rest, h, hn⟩
  obtain ⟨rfl, rfl⟩ := List.cons.inj h
  revert hn
  decide

/-- **C14.** Iterating an accepted event yields the announced number of pairs, in packet order with the
values of the packet, without panic. -/
theorem C14_pairs (packet : List UInt8) (e : NumberOfCompletedPackets)
    (h : Event.new c V packet = .ok (.numberOfCompletedPackets e)) :
    ∃ (n : UInt8) (xs : List (UInt16 × UInt16)), packet = frame 0x13 (n :: pairsBytes xs) ∧
      xs.length = n.toNat ∧ xs.length ≤ 63 ∧
      e.iter (ε := ε) = .ok (xs.map fun x => ⟨⟨x.1⟩, x.2.toNat⟩) := by
  obtain ⟨code, ps, rfl, hl, hs⟩ := (C09_sound_and_complete c V _ _).mp h
  cases hs with
  | numberOfCompletedPackets hz =>
    rename_i xs buf
    have := pairsBytes_length xs
    simp only [List.length_cons] at hl
    exact ⟨_, xs, rfl, by rw [UInt8.toNat_ofNat']; omega, by omega, completed_iter xs buf hz⟩

example : frame 0x13 (2 :: pairsBytes [(0x0201, 0x0403), (0x0605, 0x0807)]) =
    [0x13, 9, 2, 1, 2, 3, 4, 5, 6, 7, 8] := rfl

/-- **C14.** Every list of at most 63 pairs can be received. -/
theorem C14_every_list (xs : List (UInt16 × UInt16)) (h : xs.length ≤ 63) :
    ∃ e, Event.new c V (frame 0x13 (UInt8.ofNat xs.length :: pairsBytes xs)) =
      .ok (.numberOfCompletedPackets e) ∧
      e.iter (ε := ε) = .ok (xs.map fun x => ⟨⟨x.1⟩, x.2.toNat⟩) := by
  have hl := pairsBytes_length xs
  have hp : (pairsBytes xs).length ≤ NUMBER_OF_COMPLETED_PACKETS_MAX_LEN := by
    show _ ≤ 254; omega
  have hz := (inZeroes_iff (zeroPadded _ (pairsBytes xs) hp) _ hp).mpr rfl
  exact ⟨_, (C09_sound_and_complete c V _ _).mpr ⟨_, _, rfl, by simp; omega, .numberOfCompletedPackets hz⟩,
    completed_iter xs _ hz⟩

example : frame 0x13 (2 :: pairsBytes [(0x0201, 0x0403), (0x0605, 0x0807)]) =
    [0x13, 9, 2, 1, 2, 3, 4, 5, 6, 7, 8] := rfl

/-! ## C15 -/

/-- Two advertisements for the examples. -/
def demoAdvs : List LeAdvertisement :=
  [⟨.scan, .random ⟨⟨[1, 2, 3, 4, 5, 6], rfl⟩⟩, [0xAA, 0xBB], some (-5)⟩,
   ⟨.advertisement, .pub ⟨⟨[6, 5, 4, 3, 2, 1], rfl⟩⟩, [], none⟩]

/-- **C15.** Iterating an accepted advertising report returns advertisements whose encodings are exactly the
report bytes of the packet. -/
theorem C15_iteration (packet : List UInt8) (r : LeAdvertisingReport)
    (h : Event.new c V packet = .ok (.leAdvertisingReport r)) :
    ∃ n as, packet = frame 0x3E (0x02 :: n :: advsBytes as) ∧ (∀ a ∈ as, Reportable a) ∧
      r.iter (ε := ε) = .ok as := by
  obtain ⟨code, ps, rfl, hl, hs⟩ := (C09_sound_and_complete c V _ _).mp h
  cases hs with
  | leAdvertisingReport ha hz => exact ⟨_, _, rfl, ha, report_iter _ ha _ hz⟩

example : advsBytes demoAdvs =
    [2, 1, 1, 2, 3, 4, 5, 6, 2, 0xAA, 0xBB, 251, 0, 0, 6, 5, 4, 3, 2, 1, 0, 127] := by decide

/-! ## C16 -/

/-- The advertisement as the receiver sees it: RSSI 127 means "not available". -/
def asReceived (a : LeAdvertisement) : LeAdvertisement :=
  { a with rssi := if a.rssi = some 127 then none else a.rssi }

theorem advBytes_asReceived (a : LeAdvertisement) : advBytes (asReceived a) = advBytes a := by
  unfold asReceived advBytes
  by_cases h : a.rssi = some 127
  · simp only [h, if_true]
    congr 2
  · simp only [h, if_false]

theorem advsBytes_asReceived (as : List LeAdvertisement) :
    advsBytes (as.map asReceived) = advsBytes as := by
  simp only [advsBytes, List.map_map]
  congr 1
  apply List.map_congr_left
  intro a _
  exact advBytes_asReceived a

theorem advBytes_length_le {as : List LeAdvertisement} {a : LeAdvertisement} (h : a ∈ as) :
    (advBytes a).length ≤ (advsBytes as).length := by
  induction as with
  | nil => cases h
  | cons b as ih =>
    rw [advsBytes_cons, List.length_append]
    rcases List.mem_cons.mp h with rfl | h
    · omega
    · have := ih h; omega

theorem reportable_asReceived {as : List LeAdvertisement} (h : (advsBytes as).length ≤ 253) :
    ∀ a ∈ as.map asReceived, Reportable a := by
  intro b hb
  obtain ⟨a, ha, rfl⟩ := List.mem_map.mp hb
  have h1 := advBytes_length_le ha
  rw [advBytes_length] at h1
  refine ⟨by show a.data.length ≤ 255; omega, ?_⟩
  unfold asReceived
  by_cases h : a.rssi = some 127
  · simp [h]
  · simp [h]

/-- **C16.** The packet that encodes a list of advertisements is accepted and iterates back to that list
(with RSSI 127, which means "not available", read back as `None`). -/
theorem C16_round_trip_received (n : UInt8) (as : List LeAdvertisement) (h : (advsBytes as).length ≤ 253) :
    ∃ r, Event.new c V (frame 0x3E (0x02 :: n :: advsBytes as)) = .ok (.leAdvertisingReport r) ∧
      r.iter (ε := ε) = .ok (as.map asReceived) := by
  have hr := reportable_asReceived h
  have e := advsBytes_asReceived as
  generalize as.map asReceived = bs at hr e ⊢
  rw [← e] at h ⊢
  have hz := (inZeroes_iff (zeroPadded MAX_ADVERTISING_REPORT_LEN (advsBytes bs) h) _ h).mpr rfl
  exact ⟨_, (C09_sound_and_complete c V _ _).mpr
    ⟨_, _, rfl, by simp; omega, .leAdvertisingReport hr hz⟩, report_iter _ hr _ hz⟩

example : ∃ r, Event.new ⟨false, false⟩ demoVendor (frame 0x3E (0x02 :: 2 :: advsBytes demoAdvs)) =
    .ok (.leAdvertisingReport r) ∧ r.iter (ε := Unit) = .ok (demoAdvs.map asReceived) :=
  C16_round_trip_received _ _ 2 demoAdvs (by decide)

/-- **C16.** Advertisements with a valid RSSI round-trip unchanged. -/
theorem C16_round_trip (n : UInt8) (as : List LeAdvertisement) (h : (advsBytes as).length ≤ 253)
    (hr : ∀ a ∈ as, a.rssi ≠ some 127) :
    ∃ r, Event.new c V (frame 0x3E (0x02 :: n :: advsBytes as)) = .ok (.leAdvertisingReport r) ∧
      r.iter (ε := ε) = .ok as := by
  have := C16_round_trip_received c V (ε := ε) n as h
  have e : as.map asReceived = as := by
    conv => rhs; rw [← List.map_id as]
    apply List.map_congr_left
    intro a ha
    unfold asReceived
    rw [if_neg (hr a ha)]
    rfl
  rwa [e] at this

example : (advsBytes demoAdvs).length ≤ 253 ∧ ∀ a ∈ demoAdvs, a.rssi ≠ some 127 := by decide

/-! ## C17 -/

/-- What the decoder does when the last advertisement is cut after `k` bytes. -/
theorem C17_cut_iff (n : UInt8) (as : List LeAdvertisement) (a : LeAdvertisement) (k : Nat)
    (h : ∀ b ∈ a :: as, Reportable b) (hk : k < (advBytes a).length)
    (hl : (advsBytes as ++ (advBytes a).take k).length ≤ 253) :
    (Event.new c V (frame 0x3E (0x02 :: n :: (advsBytes as ++ (advBytes a).take k))) =
      .err .leAdvertisementReportIncomplete ↔ 9 ≤ k) ∧
    (Event.new c V (frame 0x3E (0x02 :: n :: (advsBytes as ++ (advBytes a).take k))) = .panic ↔
      0 < k ∧ k < 9) ∧
    ((∃ e, Event.new c V (frame 0x3E (0x02 :: n :: (advsBytes as ++ (advBytes a).take k))) = .ok e) ↔
      k = 0) := by
  have ha : ∀ b ∈ as, Reportable b := fun b hb => h b (by simp [hb])
  have hlt : ((advBytes a).take k).length = k := by rw [List.length_take]; omega
  have hl' : (advsBytes as ++ (advBytes a).take k).length ≤ MAX_ADVERTISING_REPORT_LEN := hl
  have e : Event.new c V (frame 0x3E (0x02 :: n :: (advsBytes as ++ (advBytes a).take k))) =
      (checkLoop (VE := V.VErr) (advsBytes as ++ (advBytes a).take k) 0 >>= fun _ =>
        .ok (Event.leAdvertisingReport ⟨(advsBytes as ++ (advBytes a).take k).length, zeroPadded MAX_ADVERTISING_REPORT_LEN _ hl'⟩)) := by
    rw [event_framed c V _ _ (by simp at hl ⊢; omega)]
    show toLeMetaEvent c V (0x02 :: n :: (advsBytes as ++ (advBytes a).take k)) = _
    rw [leMeta_eq]
    show (toLeAdvertisingReport (0x02 :: n :: (advsBytes as ++ (advBytes a).take k)) >>=
      fun a => (.ok (Event.leAdvertisingReport a) : Res V.EvErr V.Ev)) = _
    rw [report_eq _ _ _ hl']
    cases checkLoop (VE := V.VErr) (advsBytes as ++ (advBytes a).take k) 0 <;> rfl
  rw [e]
  by_cases h0 : k = 0
  · subst h0
    have hc : checkLoop (VE := V.VErr) (advsBytes as ++ (advBytes a).take 0) 0 = .ok () := by
      rw [List.take_zero, List.append_nil, checkLoop_ok as ha]
    rw [hc]
    simp
  by_cases h9 : k < 9
  · rw [checkLoop_cut as ha _ (by omega) (by omega)]
    simp
    omega
  · have hf : ReportFault (VE := V.VErr) ((advBytes a).take k) .leAdvertisementReportIncomplete := by
      have hn : (UInt8.ofNat a.data.length).toNat = a.data.length := by
        have := (h a (by simp)).1
        rw [UInt8.toNat_ofNat']; omega
      refine .incomplete (n := UInt8.ofNat a.data.length) ?_ ?_
      · rw [List.getElem?_take_of_lt (by omega)]
        unfold advBytes
        have := addrTypeBytes_length a.address
        rw [List.append_assoc, List.getElem?_append_right (by simp [this])]
        simp [this]
      · rw [hlt, hn]
        rw [advBytes_length] at hk
        exact hk
    rw [checkLoop_fault as ha _ hf]
    simp
    omega

/-- The second advertisement of the example cut after nine bytes. -/
example : Event.new ⟨false, false⟩ demoVendor
    (frame 0x3E (0x02 :: 2 :: (advsBytes [demoAdvs[0]] ++ (advBytes demoAdvs[1]).take 9))) =
      .err .leAdvertisementReportIncomplete :=
  (C17_cut_iff _ _ 2 [demoAdvs[0]] demoAdvs[1] 9
    (by intro b hb; simp only [List.mem_cons, List.not_mem_nil, or_false] at hb
        rcases hb with rfl | rfl <;> exact ⟨by decide, by decide⟩) (by decide) (by decide)).1.mpr (by decide)

/-- **C17** as stated is false: a report cut inside the first nine bytes of an advertisement panics. -/
theorem C17_incomplete_fails : ¬ ∀ (n : UInt8) (as : List LeAdvertisement) (a : LeAdvertisement) (k : Nat),
    (∀ b ∈ a :: as, Reportable b) → 0 < k → k < (advBytes a).length →
    (advsBytes as ++ (advBytes a).take k).length ≤ 253 →
    Event.new c V (frame 0x3E (0x02 :: n :: (advsBytes as ++ (advBytes a).take k))) =
      .err .leAdvertisementReportIncomplete := by
  intro h
  have hr : ∀ b ∈ [demoAdvs[0]], Reportable b := by
    intro b hb
    rw [List.mem_singleton.mp hb]
    exact ⟨by decide, by decide⟩
  have h1 := h 1 [] demoAdvs[0] 5 hr (by decide) (by decide) (by decide)
  have h2 := (C17_cut_iff c V 1 [] demoAdvs[0] 5 hr (by decide) (by decide)).1.mp h1
  omega

/-- **C17**, the part that holds: a cut after the ninth byte of the last advertisement is reported as
incomplete. Missing: cuts after 1 to 8 bytes, where the decoder panics (`C17_cut_iff`). -/
theorem C17_incomplete_partial (n : UInt8) (as : List LeAdvertisement) (a : LeAdvertisement) (k : Nat)
    (h : ∀ b ∈ a :: as, Reportable b) (h9 : 9 ≤ k) (hk : k < (advBytes a).length)
    (hl : (advsBytes as ++ (advBytes a).take k).length ≤ 253) :
    Event.new c V (frame 0x3E (0x02 :: n :: (advsBytes as ++ (advBytes a).take k))) =
      .err .leAdvertisementReportIncomplete :=
  (C17_cut_iff c V n as a k h hk hl).1.mpr h9

example : (∀ b ∈ demoAdvs, Reportable b) ∧ 10 < (advBytes demoAdvs[0]).length := by
  refine ⟨?_, by decide⟩
  have : ∀ b ∈ demoAdvs, b.data.length ≤ 255 ∧ b.rssi ≠ some 127 := by decide
  exact this

/-! ## C18 -/

/-- **C18** as stated is false: a report announcing five advertisements and carrying none is accepted. -/
theorem C18_count_fails : ¬ ∀ (n : UInt8) (ps : List UInt8) (r : LeAdvertisingReport)
    (as : List LeAdvertisement), ps.length ≤ 253 →
    Event.new c V (frame 0x3E (0x02 :: n :: ps)) = .ok (.leAdvertisingReport r) →
    r.iter (ε := ε) = .ok as → as.length = n.toNat := by
  intro h
  obtain ⟨r, h1, h2⟩ := C16_round_trip c V (ε := ε) 5 [] (by decide) (by simp)
  have := h 5 [] r [] (by decide) h1 h2
  cases this

/-- **C18.** The announced number has no influence at all. -/
theorem C18_count_ignored (n n' : UInt8) (ps : List UInt8) (h : ps.length ≤ 253) :
    Event.new c V (frame 0x3E (0x02 :: n :: ps)) = Event.new c V (frame 0x3E (0x02 :: n' :: ps)) := by
  have e (n : UInt8) : Event.new c V (frame 0x3E (0x02 :: n :: ps)) =
      ((checkLoop (VE := V.VErr) ps 0 >>= fun _ =>
        .ok ⟨ps.length, zeroPadded MAX_ADVERTISING_REPORT_LEN ps h⟩) >>= fun a =>
        (.ok (Event.leAdvertisingReport a) : Res V.EvErr V.Ev)) := by
    rw [event_framed c V _ _ (by simp; omega)]
    show toLeMetaEvent c V (0x02 :: n :: ps) = _
    rw [leMeta_eq]
    show (toLeAdvertisingReport (0x02 :: n :: ps) >>=
      fun a => (.ok (Event.leAdvertisingReport a) : Res V.EvErr V.Ev)) = _
    rw [report_eq _ _ _ h]
  rw [e n, e n']

example : Event.new ⟨false, false⟩ demoVendor (frame 0x3E (0x02 :: 2 :: advsBytes demoAdvs)) =
    Event.new ⟨false, false⟩ demoVendor (frame 0x3E (0x02 :: 200 :: advsBytes demoAdvs)) :=
  C18_count_ignored _ _ _ _ _ (by decide)

/-- **C18**, the part that holds: a report that announces its true number of advertisements yields that
number. Missing: reports that announce another number, which are accepted all the same
(`C18_count_ignored`). -/
theorem C18_count_partial (as : List LeAdvertisement) (h : (advsBytes as).length ≤ 253) :
    ∃ r as', Event.new c V (frame 0x3E (0x02 :: UInt8.ofNat as.length :: advsBytes as)) =
      .ok (.leAdvertisingReport r) ∧ r.iter (ε := ε) = .ok as' ∧
      as'.length = (UInt8.ofNat as.length).toNat := by
  obtain ⟨r, h1, h2⟩ := C16_round_trip_received c V (ε := ε) (UInt8.ofNat as.length) as h
  refine ⟨r, _, h1, h2, ?_⟩
  have : as.length ≤ (advsBytes as).length := by
    clear h h1 h2 r
    induction as with
    | nil => exact Nat.zero_le _
    | cons a as ih =>
      rw [advsBytes_cons, List.length_append, advBytes_length]
      simp only [List.length_cons]
      omega
  rw [List.length_map, UInt8.toNat_ofNat']
  omega

example : (advsBytes demoAdvs).length ≤ 253 ∧ demoAdvs.length = 2 := by decide

/-- **C18**, where the claim holds: of the reports that carry given advertisements, whatever they announce, the
ones that yield the announced number are exactly the ones that announce the true number. -/
theorem C18_count_iff_partial (n : UInt8) (as : List LeAdvertisement) (h : (advsBytes as).length ≤ 253) :
    (∃ r as', Event.new c V (frame 0x3E (0x02 :: n :: advsBytes as)) = .ok (.leAdvertisingReport r) ∧
      r.iter (ε := ε) = .ok as' ∧ as'.length = n.toNat) ↔ n.toNat = as.length := by
  obtain ⟨r, h1, h2⟩ := C16_round_trip_received c V (ε := ε) n as h
  constructor
  · rintro ⟨r', as', h3, h4, h5⟩
    rw [h1] at h3
    cases h3
    rw [h2] at h4
    cases h4
    rw [← h5, List.length_map]
  · intro hn
    exact ⟨r, _, h1, h2, by rw [List.length_map, hn]⟩

/-- Three announced, two carried. -/
example : ¬ ∃ r as', Event.new ⟨false, false⟩ demoVendor (frame 0x3E (0x02 :: 3 :: advsBytes demoAdvs)) =
    .ok (.leAdvertisingReport r) ∧ r.iter (ε := Unit) = .ok as' ∧ as'.length = (3 : UInt8).toNat := by
  rw [C18_count_iff_partial _ _ _ _ (by decide)]
  decide

/-! ## C19 -/

/-- **C19.** The test helper builds what the decoder builds: it returns exactly when the advertisements fit
in 253 bytes, and then iterates back to them. -/
theorem C19_helper (as : List LeAdvertisement) :
    (reportWithAdvertisements (ε := ε) as = .panic ↔ 253 < (advsBytes as).length) ∧
    (∀ e, reportWithAdvertisements (ε := ε) as ≠ .err e) ∧
    (∀ r, reportWithAdvertisements (ε := ε) as = .ok r →
      r.iter (ε := ε) = .ok (as.map asReceived) ∧
      ∀ n, Event.new c V (frame 0x3E (0x02 :: n :: advsBytes as)) = .ok (.leAdvertisingReport r)) := by
  rw [reportWith_eq]
  by_cases h : (advsBytes as).length ≤ MAX_ADVERTISING_REPORT_LEN
  · rw [dif_pos h]
    have h' : (advsBytes as).length ≤ 253 := h
    refine ⟨⟨(fun h => by cases h), fun hh => by omega⟩, by simp, ?_⟩
    intro r hr
    obtain rfl := Res.ok.inj hr
    have hz := (inZeroes_iff (zeroPadded MAX_ADVERTISING_REPORT_LEN (advsBytes as) h) _ h).mpr rfl
    constructor
    · have := report_iter (ε := ε) (as.map asReceived) (reportable_asReceived h')
        (zeroPadded MAX_ADVERTISING_REPORT_LEN (advsBytes as) h) (by rw [advsBytes_asReceived]; exact hz)
      rw [advsBytes_asReceived] at this
      exact this
    · intro n
      rw [C09_sound_and_complete]
      have := Says.leAdvertisingReport (c := c) (V := V) (n := n) (reportable_asReceived h')
        (by rw [advsBytes_asReceived]; exact hz)
      rw [advsBytes_asReceived] at this
      exact ⟨_, _, rfl, by simp; omega, this⟩
  · rw [dif_neg h]
    have h' : ¬ (advsBytes as).length ≤ 253 := h
    exact ⟨⟨fun _ => by omega, fun _ => rfl⟩, by simp, by simp⟩

example : ∃ r, reportWithAdvertisements (ε := Unit) demoAdvs = .ok r := by
  rw [reportWith_eq, dif_pos (by decide)]
  exact ⟨_, rfl⟩

end Bt
