import Verif.Lemmas.LegibleEvents
import Verif.Lemmas.FlagTables
import Verif.Props.Reports

/-! # C58, C59, C60: `Debug` texts -/

namespace Bt

open Spec

/-! ## C58 -/

/-- **C58.** Debug-printing the parameters of `le_encrypt` discloses nothing about the plaintext: two
parameters print alike exactly when their keys are equal, as `{:?}` and as `{:#?}`. In particular the key *is*
disclosed. -/
theorem C58_parameters [Style] (p q : AesParameters) : p.debug = q.debug ↔ p.key = q.key := by
  constructor
  · intro h
    have key (a b : Arr 16) : Sync (encryptionKeyDebug a) (encryptionKeyDebug b) (a = b) := by
      refine Sync.of_closed fun r s e => ?_
      unfold encryptionKeyDebug at e
      simp only [List.append_assoc, List.append_cancel_left_eq] at e
      obtain ⟨h1, h2⟩ := fmtHexSlice_inj (by rw [a.len, b.len]) e
      exact ⟨Arr.ext' h1, List.append_cancel_left h2⟩
    have data (a b : Arr 16) : Sync (plaintextBlockDebug a) (plaintextBlockDebug b) True :=
      Sync.of_closed fun _ _ e => ⟨True.intro, List.append_cancel_left e⟩
    exact ((struct_sync _ (fields_cons _ (key p.key q.key) (fields_one _ (data p.plaintextData q.plaintextData)))).eq h).1
  · intro h
    unfold AesParameters.debug plaintextBlockDebug
    rw [h]

/-- Same key, different plaintext. -/
example [Style] : (AesParameters.mk (Arr.zero 16) (Arr.zero 16)).debug =
    (AesParameters.mk (Arr.zero 16) ⟨[1, 2, 3, 4, 5, 6, 7, 8, 9, 10, 11, 12, 13, 14, 15, 16], rfl⟩).debug := rfl

open Pretty in
/-- The alternate form. -/
example : AesParameters.debug ⟨Arr.zero 16, Arr.zero 16⟩ =
    ("AesParameters {\n    key: AES-128 Key ([0, 0, 0, 0, 0, 0, 0, 0, 0, 0, 0, 0, 0, 0, 0, 0]),\n" ++
      "    plaintext_data: AES-128 Plaintext (REDACTED),\n}").toList := by decide +kernel

/-- **C58.** All plaintext blocks print alike. -/
theorem C58_plaintext (a b : Arr 16) : plaintextBlockDebug a = plaintextBlockDebug b := rfl

example : plaintextBlockDebug (Arr.zero 16) = "AES-128 Plaintext (REDACTED)".toList := by decide +kernel

/-- **C58.** Printed keys can be told apart. -/
theorem C58_key (a b : Arr 16) : encryptionKeyDebug a = encryptionKeyDebug b ↔ a = b := by
  refine ⟨fun h => ?_, fun h => by rw [h]⟩
  unfold encryptionKeyDebug at h
  simp only [List.append_assoc, List.append_cancel_left_eq] at h
  exact Arr.ext' (fmtHexSlice_inj (by rw [a.len, b.len]) h).1

example : encryptionKeyDebug (Arr.zero 16) ≠
    encryptionKeyDebug ⟨[1, 2, 3, 4, 5, 6, 7, 8, 9, 10, 11, 12, 13, 14, 15, 16], rfl⟩ := by decide +kernel

/-- **C58.** Printed ciphertexts can be told apart. -/
theorem C58_ciphertext (a b : Arr 16) : encryptedBlockDebug a = encryptedBlockDebug b ↔ a = b := by
  refine ⟨fun h => ?_, fun h => by rw [h]⟩
  unfold encryptedBlockDebug at h
  simp only [List.append_assoc, List.append_cancel_left_eq] at h
  exact Arr.ext' (fmtHexSlice_inj (by rw [a.len, b.len]) h).1

example : encryptionKeyDebug ⟨[0, 1, 0x0A, 0xFF, 4, 5, 6, 7, 8, 9, 10, 11, 12, 13, 14, 0xAB], rfl⟩ =
    "AES-128 Key ([0, 1, A, FF, 4, 5, 6, 7, 8, 9, A, B, C, D, E, AB])".toList := by decide +kernel

/-! ## C59 -/

theorem commandFlags_debug {ε : Type} (f : CommandFlags) : CommandFlags.debug (ε := ε) f =
    .ok (fmtSlice (fmtDec ·.toNat) ((f.arr.val.take 16).drop 0) ++ ['\n'] ++
      (fmtSlice (fmtDec ·.toNat) ((f.arr.val.take 32).drop 16) ++ ['\n']) ++
      (fmtSlice (fmtDec ·.toNat) ((f.arr.val.take 39).drop 32) ++ ['\n'])) := by
  have h : f.arr.val.length = 64 := f.arr.len
  unfold CommandFlags.debug slice
  rw [if_pos (by omega), if_pos (by omega), if_pos (by omega)]
  rfl

/-- What the text of a command bit field determines: the first 39 octets. -/
theorem commandFlags_debug_iff {ε : Type} (f g : CommandFlags) :
    CommandFlags.debug (ε := ε) f = CommandFlags.debug g ↔ f.arr.val.take 39 = g.arr.val.take 39 := by
  have hf : f.arr.val.length = 64 := f.arr.len
  have hg : g.arr.val.length = 64 := g.arr.len
  rw [commandFlags_debug, commandFlags_debug, Res.ok.injEq]
  constructor
  · intro h
    simp only [List.append_assoc] at h
    obtain ⟨h1, h⟩ := fmtDecSlice_inj (by simp [hf, hg]) h
    obtain ⟨h2, h⟩ := fmtDecSlice_inj (by simp [hf, hg]) (List.append_cancel_left h)
    obtain ⟨h3, -⟩ := fmtDecSlice_inj (by simp [hf, hg]) (List.append_cancel_left h)
    have split (l : List UInt8) : l.take 39 =
        (l.take 16).drop 0 ++ ((l.take 32).drop 16 ++ (l.take 39).drop 32) := by
      have e : l.take (16 + (16 + 7)) = l.take 16 ++ ((l.drop 16).take 16 ++ (l.drop (16 + 16)).take 7) := by
        rw [List.take_add, List.take_add, List.drop_drop]
      rw [List.drop_take, List.drop_take, List.drop_take]
      exact e
    rw [split f.arr.val, split g.arr.val, h1, h2, h3]
  · intro h
    have t (k : Nat) (hk : k ≤ 39) : f.arr.val.take k = g.arr.val.take k := by
      have := congrArg (List.take k) h
      rwa [List.take_take, List.take_take, Nat.min_eq_left hk] at this
    rw [t 16 (by decide), t 32 (by decide), h]

/-- **C59 (partial).** The claim is that the printed bit field shows every supported command: bit fields that
hold only bits of the configuration's commands print alike exactly if they are equal. It holds in the
configurations without `version-5-0`; printing never panics. Missing: `version-5-0`, where it is false
(`C59_octet_39_dropped`). -/
theorem C59_shown_partial {ε : Type} (c : Cfg) (hc : c.v50 = false) (f g : CommandFlags)
    (hf : ∀ i j, HasBit f.arr.val i j → CommandBit c i j) (hg : ∀ i j, HasBit g.arr.val i j → CommandBit c i j) :
    (∃ t, CommandFlags.debug (ε := ε) f = .ok t) ∧
      (CommandFlags.debug (ε := ε) f = CommandFlags.debug g ↔ f = g) := by
  refine ⟨⟨_, commandFlags_debug f⟩, fun h => ?_, fun h => by rw [h]⟩
  rw [commandFlags_debug_iff] at h
  have small (i j : Nat) (hb : CommandBit c i j) : i < 39 := by
    rcases hb with hb | ⟨-, hb⟩ | ⟨h5, -⟩
    · exact Nat.lt_of_lt_of_le (inOctets_lt hb) (by decide)
    · exact Nat.lt_of_lt_of_le (inOctets_lt hb) (by decide)
    · rw [From50, hc] at h5; cases h5
  have low {a b : List UInt8} (hab : a.take 39 = b.take 39) {i j : Nat} (hi : i < 39) (hb : HasBit a i j) :
      HasBit b i j := by
    obtain ⟨x, hx, hj⟩ := hb
    refine ⟨x, ?_, hj⟩
    have := congrArg (·[i]?) hab
    simp only [List.getElem?_take, if_pos hi] at this
    rw [← this, hx]
  rcases f with ⟨f⟩
  rcases g with ⟨g⟩
  congr 1
  apply Arr.ext'
  apply hasBit_ext (by rw [f.len, g.len])
  intro i j
  exact ⟨fun hb => low h (small _ _ (hf _ _ hb)) hb, fun hb => low h.symm (small _ _ (hg _ _ hb)) hb⟩

/-- Two sets of commands that print differently. -/
example : CommandFlags.debug (ε := Empty) ⟨⟨0x20 :: zeroes 63, rfl⟩⟩ ≠
    CommandFlags.debug ⟨⟨0x40 :: zeroes 63, rfl⟩⟩ := by
  rw [Ne, commandFlags_debug_iff]
  decide

/-- **C59**, what the text shows in every configuration: the first 39 octets, no more and no less. -/
theorem C59_exactly {ε : Type} (f g : CommandFlags) :
    CommandFlags.debug (ε := ε) f = CommandFlags.debug g ↔ f.arr.val.take 39 = g.arr.val.take 39 :=
  commandFlags_debug_iff f g

/-- Octets 38 and 39 of two sets: the one is shown, the other is not. -/
example : CommandFlags.debug (ε := Empty) ⟨⟨zeroes 38 ++ 1 :: zeroes 25, rfl⟩⟩ ≠
      CommandFlags.debug ⟨⟨zeroes 64, rfl⟩⟩ ∧
    CommandFlags.debug (ε := Empty) ⟨⟨zeroes 39 ++ 1 :: zeroes 24, rfl⟩⟩ =
      CommandFlags.debug ⟨⟨zeroes 64, rfl⟩⟩ := by
  rw [Ne, C59_exactly, C59_exactly]
  decide

/-- **C59, negation.** With `version-5-0` the text omits octet 39: a controller that supports LE Set Privacy
Mode prints like one that supports no command. -/
theorem C59_octet_39_dropped {ε : Type} (c : Cfg) (hc : c.v50 = true) :
    ∃ f g : CommandFlags, (∀ i j, HasBit f.arr.val i j → CommandBit c i j) ∧
      (∀ i j, HasBit g.arr.val i j → CommandBit c i j) ∧ HasBit f.arr.val 39 2 ∧ f ≠ g ∧
      CommandFlags.debug (ε := ε) f = CommandFlags.debug g := by
  refine ⟨⟨⟨List.replicate 39 0 ++ [4] ++ List.replicate 24 0, by decide⟩⟩, BFlags.empty 64, ?_, ?_, ?_, ?_, ?_⟩
  · rintro i j ⟨x, hx, hj⟩
    have hi : i < 64 := by
      refine Decidable.byContradiction fun h => ?_
      rw [List.getElem?_eq_none (by simp; omega)] at hx
      cases hx
    have key : ∀ i < 64, (List.replicate 39 (0 : UInt8) ++ [4] ++ List.replicate 24 0)[i]? =
        if i = 39 then some 4 else some 0 := by decide +kernel
    simp only [key i hi] at hx
    by_cases h39 : i = 39
    · rw [if_pos h39] at hx
      obtain rfl := Option.some.inj hx
      have : j = 2 := by
        have h4 : (4 : UInt8).toNat = 2 ^ 2 := rfl
        rw [h4, Nat.testBit_two_pow, decide_eq_true_iff] at hj
        exact hj.symm
      subst h39 this
      exact .inr (.inr ⟨hc, by decide +kernel⟩)
    · rw [if_neg h39] at hx
      obtain rfl := Option.some.inj hx
      simp at hj
  · rintro i j h
    exact absurd h (not_hasBit_replicate _ _ _)
  · exact ⟨4, by decide +kernel, by decide +kernel⟩
  · intro h
    exact absurd (congrArg (·.arr.val) h) (by decide +kernel)
  · exact (commandFlags_debug_iff _ _).mpr (by decide +kernel)

example : ∃ f : CommandFlags, f.arr.val.take 2 = [0x20, 0] ∧
    ∀ i j, HasBit f.arr.val i j → CommandBit ⟨false, false⟩ i j := by
  refine ⟨⟨⟨[0x20] ++ List.replicate 63 0, by decide⟩⟩, rfl, ?_⟩
  rintro i j ⟨x, hx, hj⟩
  rcases i with _ | i
  · obtain rfl : 0x20 = x := by simpa using hx
    have h4 : (0x20 : UInt8).toNat = 2 ^ 5 := rfl
    rw [h4, Nat.testBit_two_pow, decide_eq_true_iff] at hj
    subst hj
    exact .inl (by decide +kernel)
  · exact absurd (⟨x, by simpa using hx, hj⟩ : HasBit (List.replicate 63 0) i j) (not_hasBit_replicate _ _ _)

/-! ## C60 -/

/-- **C60.** Printing a received Number Of Completed Packets event does not panic, and two events print alike
exactly if they carry the same pairs in the same order. -/
theorem C60_completed_packets (c : Cfg) (V : Vendor) {ε : Type} (xs ys : List (UInt16 × UInt16))
    (d e : NumberOfCompletedPackets) (hx : xs.length ≤ 63) (hy : ys.length ≤ 63)
    (hd : Event.new c V (frame 0x13 (UInt8.ofNat xs.length :: pairsBytes xs)) = .ok (.numberOfCompletedPackets d))
    (he : Event.new c V (frame 0x13 (UInt8.ofNat ys.length :: pairsBytes ys)) = .ok (.numberOfCompletedPackets e)) :
    (∃ t, d.debug (ε := ε) = .ok t) ∧ (d.debug (ε := ε) = e.debug ↔ xs = ys) := by
  have text (xs : List (UInt16 × UInt16)) (d : NumberOfCompletedPackets) (hx : xs.length ≤ 63)
      (hd : Event.new c V (frame 0x13 (UInt8.ofNat xs.length :: pairsBytes xs)) =
        .ok (.numberOfCompletedPackets d)) :
      d.debug (ε := ε) = .ok ('{' :: (((xs.map fun x => (⟨⟨x.1⟩, x.2.toNat⟩ : NumberOfCompletedPacketsPair)).map
        NumberOfCompletedPacketsPair.debug).flatten ++ ['}'])) := by
    obtain ⟨d', h1, h2⟩ := C14_every_list c V (ε := ε) xs hx
    rw [hd] at h1
    cases h1
    unfold NumberOfCompletedPackets.debug
    rw [h2]
    rfl
  rw [text xs d hx hd, text ys e hy he]
  refine ⟨⟨_, rfl⟩, fun h => ?_, fun h => by rw [h]⟩
  have := pairsDebug_inj (List.cons.inj (Res.ok.inj h)).2
  refine List.map_inj_right ?_ |>.mp this
  rintro ⟨a, b⟩ ⟨a', b'⟩ h
  simp only [NumberOfCompletedPacketsPair.mk.injEq, ConnectionHandle.mk.injEq] at h
  exact Prod.ext h.1 (UInt16.toNat_inj.mp h.2)

example : ∃ d, Event.new ⟨true, true⟩ Spec.demoVendor
    (frame 0x13 (UInt8.ofNat [((0x0201 : UInt16), (7 : UInt16)), (0x0403, 8)].length ::
      pairsBytes [(0x0201, 7), (0x0403, 8)])) = .ok (.numberOfCompletedPackets d) :=
  (C14_every_list ⟨true, true⟩ Spec.demoVendor (ε := Empty) [(0x0201, 7), (0x0403, 8)] (by decide)).imp fun _ h => h.1

/-- **C60.** Printing a received LE Advertising Report does not panic and prints its advertisements, one after
the other in packet order, however a single advertisement is printed. -/
theorem C60_advertising_report (c : Cfg) (V : Vendor) {ε : Type} (item : LeAdvertisement → Text)
    (packet : List UInt8) (r : LeAdvertisingReport) (h : Event.new c V packet = .ok (.leAdvertisingReport r)) :
    ∃ n as, packet = frame 0x3E (0x02 :: n :: advsBytes as) ∧ (∀ a ∈ as, Reportable a) ∧
      r.debug (ε := ε) item = .ok ('{' :: ((as.map item).flatten ++ ['}'])) := by
  obtain ⟨n, as, h1, ha, h2⟩ := C15_iteration c V (ε := ε) packet r h
  exact ⟨n, as, h1, ha, by unfold LeAdvertisingReport.debug; rw [h2]; rfl⟩

/-- **C60.** Two received LE Advertising Reports print alike exactly if they have the same report bytes, so the text
shows every field of every advertisement; it does not show the number of reports that the packet announced. -/
theorem C60_reports_told_apart (c : Cfg) (V : Vendor) {ε : Type} (p q : List UInt8) (r r' : LeAdvertisingReport)
    (hp : Event.new c V p = .ok (.leAdvertisingReport r)) (hq : Event.new c V q = .ok (.leAdvertisingReport r')) :
    r.debug (ε := ε) LeAdvertisement.debug = r'.debug LeAdvertisement.debug ↔
      ∃ n m rest, p = frame 0x3E (0x02 :: n :: rest) ∧ q = frame 0x3E (0x02 :: m :: rest) := by
  obtain ⟨n, as, h1, -, h2⟩ := C60_advertising_report c V (ε := ε) LeAdvertisement.debug p r hp
  obtain ⟨m, bs, h3, -, h4⟩ := C60_advertising_report c V (ε := ε) LeAdvertisement.debug q r' hq
  constructor
  · intro h
    rw [h2, h4] at h
    have := advertisements_debug_inj (List.cons.inj (Res.ok.inj h)).2
    exact ⟨n, m, advsBytes as, h1, by rw [h3, this]⟩
  · rintro ⟨n', m', rest, rfl, rfl⟩
    have hl : rest.length ≤ 253 := by
      obtain ⟨code, ps, hf, hl, -⟩ := (C09_sound_and_complete c V _ _).mp hp
      obtain ⟨rfl, rfl⟩ := frame_inj hf
      simp only [List.length_cons] at hl
      omega
    rw [C18_count_ignored c V n' m' rest hl, hq] at hp
    cases hp
    rfl

example : LeAdvertisement.debug ⟨.scan, .random ⟨⟨[1, 2, 3, 4, 5, 0xC6], rfl⟩⟩, [2, 10, 0xFF], some (-60)⟩ =
    ("LeAdvertisement { event_type: Scan, address: Random(BdAddr([1, 2, 3, 4, 5, 198])), " ++
      "data: [2, 10, 255], rssi: Some(-60) }").toList := by
  decide +kernel

/-- Two reports that differ in the signal strength, received with all fields readable. -/
example : (∃ r, Event.new ⟨false, false⟩ demoVendor (frame 0x3E (0x02 :: 2 :: advsBytes demoAdvs)) =
      .ok (.leAdvertisingReport r)) ∧
    LeAdvertisement.debug ⟨.scan, .pub ⟨Arr.zero 6⟩, [], some (-60)⟩ ≠
      LeAdvertisement.debug ⟨.scan, .pub ⟨Arr.zero 6⟩, [], some 60⟩ :=
  ⟨(C16_round_trip_received ⟨false, false⟩ demoVendor (ε := Unit) 2 demoAdvs (by decide)).imp fun _ h => h.1,
    by decide +kernel⟩

example : NumberOfCompletedPacketsPair.debug ⟨⟨0x0102⟩, 77⟩ =
    "NumberOfCompletedPacketsPair { conn_handle: ConnectionHandle(258), num_completed_packets: 77 }".toList := by
  decide +kernel

/-- **C60**, the items of the lists one by one: the text of a pair, or of an advertisement, is that of no other, as
`{:?}` and as `{:#?}`. -/
theorem C60_items [Style] : (∀ p q : NumberOfCompletedPacketsPair, p.debugIn = q.debugIn ↔ p = q) ∧
    ∀ a b : LeAdvertisement, a.debugIn = b.debugIn ↔ a = b :=
  ⟨fun p q => ⟨(pair_sync p q).eq, fun h => by rw [h]⟩, fun a b => ⟨(advertisement_sync a b).eq, fun h => by rw [h]⟩⟩

open Pretty in
example : LeAdvertisement.debugIn ⟨.scan, .pub ⟨[1, 2, 3, 4, 5, 6], rfl⟩, [], some (-5)⟩ =
    ("LeAdvertisement {\n    event_type: Scan,\n    address: Public(\n        BdAddr(\n            [\n" ++
      "                1,\n                2,\n                3,\n                4,\n                5,\n" ++
      "                6,\n            ],\n        ),\n    ),\n    data: [],\n    rssi: Some(\n        -5,\n    ),\n}").toList := by
  decide +kernel

end Bt
