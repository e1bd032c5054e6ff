import Verif.Spec.Device
import Verif.Props.Procedures

/-! # C109: a value that the application asks for is the value that the device has -/

namespace Bt

open Spec

variable {σ E VS : Type} (c : Cfg) (V : Vendor)

theorem le16_two (h : UInt16) : ∃ a b, le16 h = [a, b] ∧ handleOf a b = h := by
  have hl : (le16 h).length = 2 := by simp
  obtain ⟨a, b, hab⟩ : ∃ a b, le16 h = [a, b] := by
    match le16 h, hl with
    | [a, b], _ => exact ⟨a, b, rfl⟩
  refine ⟨a, b, hab, ?_⟩
  have := ofNat_leNat_le16 h
  rw [hab] at this
  simpa [leNat, handleOf] using this

theorem header_is (l : Link) {o : UInt16} {lo hi : UInt8} (h : le16 o = [lo, hi]) (n : Nat) :
    headerBytes l o n = indicator l ++ [lo, hi, UInt8.ofNat n] := by
  unfold headerBytes
  rw [h]
  cases l <;> rfl

theorem complete_is {o : UInt16} {lo hi : UInt8} (h : le16 o = [lo, hi]) (r : List UInt8) {n : UInt8}
    (hn : UInt8.ofNat (r.length + 3) = n) : frame 0x0E (1 :: le16 o ++ r) = [0x0E, n, 1, lo, hi] ++ r := by
  rw [h]
  simp [frame, hn]

theorem ask_bytes (l : Link) {cmd : Command VS} {o : UInt16} {lo hi : UInt8} (hp : cmdParams cmd = [] ∧ cmdOpcode cmd = o)
    (h : le16 o = [lo, hi]) :
    headerBytes l (cmdOpcode cmd) (cmdParams cmd).length ++ cmdParams cmd = indicator l ++ [lo, hi, 0] := by
  rw [hp.1, hp.2, header_is l h, List.append_nil]
  rfl

/-- **C109.** On both links, in every configuration: the method asks with one write, these bytes are one of the commands
that the device knows, and the event that the device answers is the success of this command, for the connection
that was asked about, with the value that the device has. -/
theorem C109_answer (l : Link) (k : Controller σ E) (vinto : VS → UInt8) (D : Device) (hD : D.Sound c) (n : Nat)
    (q : Question) (s : σ) :
    ∃ header payload packet,
      (q.command.exec (linkHeader l) (recording k) vinto (s, [])).2.2 = [.write header payload] ∧
      header ++ payload = indicator l ++ (header ++ payload).drop (indicator l).length ∧
      D.serve n ((header ++ payload).drop (indicator l).length) = some packet ∧ Framed packet ∧
      Event.new c V packet = .ok (.commandComplete ⟨1, q.answer D n⟩) := by
  suffices key : ∃ bytes o r, headerBytes l (cmdOpcode (q.command (VS := VS))) (cmdParams (q.command (VS := VS))).length ++
        cmdParams (q.command (VS := VS)) = indicator l ++ bytes ∧ D.serve n bytes = some (frame 0x0E (1 :: le16 o ++ r)) ∧
      r.length ≤ 252 ∧ Returns c V o r (q.answer D n) by
    obtain ⟨bytes, o, r, h1, h2, h3, h4⟩ := key
    have h5 : (1 :: le16 o ++ r).length ≤ 255 := by simp; omega
    refine ⟨_, _, _, C39_trace c l k vinto (q.command (VS := VS))
      (by cases q <;> simp [Question.command, Command.Constructible]) (by cases q <;> rfl) s [], ?_, ?_, ⟨0x0E, _, h5, rfl⟩,
      (C09_sound_and_complete c V _ _).mpr ⟨0x0E, _, rfl, h5, .commandComplete h4⟩⟩
    · rw [h1, List.drop_left]
    · rw [h1, List.drop_left, h2]
  have hok : StatusByte c V 0 .success := status_zero c V
  cases q with
  | encrypt kk b =>
    refine ⟨[0x17, 0x20, 32] ++ (kk.val ++ b.val), op 0x08 0x17, 0 :: (D.cipher kk b).val, ?_, ?_, ?_, .leEncrypt hok⟩
    · have : (cmdParams (Question.command (.encrypt kk b) : Command VS)).length = 32 := by
        simp [Question.command, cmdParams, kk.len, b.len]
      rw [this]
      change headerBytes l 0x2017 32 ++ _ = _
      rw [header_is l (lo := 0x17) (hi := 0x20) (by decide), List.append_assoc]
      rfl
    · have hlen : (kk.val ++ b.val).length = 32 := by simp [kk.len, b.len]
      have h1 : (kk.val ++ b.val).take 16 = kk.val := List.take_left' kk.len
      have h2 : (kk.val ++ b.val).drop 16 = b.val := List.drop_left' kk.len
      rw [complete_is (lo := 0x17) (hi := 0x20) (n := 20) (by decide) _ (by simp [(D.cipher kk b).len])]
      simp only [Device.serve, List.cons_append, List.nil_append, dif_pos hlen]
      simp only [h1, h2]
    · simp [(D.cipher kk b).len]
  | random =>
    refine ⟨[0x18, 0x20, 0], op 0x08 0x18, 0 :: le64 (D.random n), ?_, ?_, ?_, .leRand hok⟩
    · change headerBytes l 0x2018 0 ++ [] = _
      rw [header_is l (lo := 0x18) (hi := 0x20) (by decide), List.append_nil]
      rfl
    · rw [complete_is (lo := 0x18) (hi := 0x20) (n := 12) (by decide) _ (by simp)]
      rfl
    · simp
  | rssi h =>
    obtain ⟨a, b, hab, hh⟩ := le16_two h.val
    refine ⟨[0x05, 0x14, 2, a, b], op 0x05 0x05, 0 :: le16 h.val ++ [twos (D.rssi n h.val)], ?_, ?_, ?_, .readRssi hok⟩
    · simp only [Question.command, cmdParams, hab]
      change headerBytes l 0x1405 2 ++ _ = _
      rw [header_is l (lo := 0x05) (hi := 0x14) (by decide), List.append_assoc]
      rfl
    · rw [complete_is (lo := 0x05) (hi := 0x14) (n := 7) (by decide) _ (by simp)]
      simp only [Device.serve, hh, hab]
      rfl
    · simp
  | power h t =>
    obtain ⟨a, b, hab, hh⟩ := le16_two h.val
    refine ⟨[0x2D, 0x0C, 3, a, b, match t with | .current => 0 | .maximum => 1], op 0x03 0x2D,
      0 :: le16 h.val ++ [twos (D.power n h.val t)], ?_, ?_, ?_, .readTxPowerLevel hok⟩
    · simp only [Question.command, cmdParams, hab]
      change headerBytes l 0x0C2D 3 ++ _ = _
      rw [header_is l (lo := 0x2D) (hi := 0x0C) (by decide), List.append_assoc]
      rfl
    · rw [complete_is (lo := 0x2D) (hi := 0x0C) (n := 7) (by decide) _ (by simp)]
      cases t <;> simp only [Device.serve, hh, hab] <;> rfl
    · simp
  | channels h =>
    obtain ⟨a, b, hab, hh⟩ := le16_two h.val
    refine ⟨[0x15, 0x20, 2, a, b], op 0x08 0x15, 0 :: le16 h.val ++ (D.channels n h.val).val, ?_, ?_, ?_,
      .leReadChannelMap (m := ⟨D.channels n h.val⟩) hok (hD.channels n h.val)⟩
    · simp only [Question.command, cmdParams, hab]
      change headerBytes l 0x2015 2 ++ _ = _
      rw [header_is l (lo := 0x15) (hi := 0x20) (by decide), List.append_assoc]
      rfl
    · rw [complete_is (lo := 0x15) (hi := 0x20) (n := 11) (by decide) _ (by simp [(D.channels n h.val).len])]
      simp only [Device.serve, hh, hab]
      rfl
    · simp [(D.channels n h.val).len]
  | version =>
    refine ⟨[0x01, 0x10, 0], op 0x04 0x01, 0 :: D.hciVersion :: le16 D.hciRevision ++ D.lmpVersion :: le16 D.manufacturer ++ le16 D.lmpSubversion, ?_, ?_, ?_,
      .readLocalVersionInformation hok⟩
    · exact ask_bytes l (o := 0x1001) ⟨rfl, rfl⟩ (by decide)
    · rw [complete_is (lo := 0x01) (hi := 0x10) (n := 12) (by decide) _ (by simp)]
      simp [Device.serve]
    · simp
  | commands =>
    refine ⟨[0x02, 0x10, 0], op 0x04 0x02, 0 :: D.commands.val, ?_, ?_, ?_,
      .readLocalSupportedCommands (f := ⟨D.commands⟩) hok hD.commands⟩
    · exact ask_bytes l (o := 0x1002) ⟨rfl, rfl⟩ (by decide)
    · rw [complete_is (lo := 0x02) (hi := 0x10) (n := 68) (by decide) _ (by simp [D.commands.len])]
      simp [Device.serve]
    · simp [D.commands.len]
  | features =>
    refine ⟨[0x03, 0x10, 0], op 0x04 0x03, 0 :: le64 D.features, ?_, ?_, ?_,
      .readLocalSupportedFeatures hok (fun j => ⟨fun h => ⟨h, hD.features j h⟩, And.left⟩)⟩
    · exact ask_bytes l (o := 0x1003) ⟨rfl, rfl⟩ (by decide)
    · rw [complete_is (lo := 0x03) (hi := 0x10) (n := 12) (by decide) _ (by simp)]
      simp [Device.serve]
    · simp
  | address =>
    refine ⟨[0x09, 0x10, 0], op 0x04 0x09, 0 :: D.address.val.val, ?_, ?_, ?_,
      .readBdAddr hok⟩
    · exact ask_bytes l (o := 0x1009) ⟨rfl, rfl⟩ (by decide)
    · rw [complete_is (lo := 0x09) (hi := 0x10) (n := 10) (by decide) _ (by simp [D.address.val.len])]
      simp [Device.serve]
    · simp [D.address.val.len]
  | buffers =>
    refine ⟨[0x02, 0x20, 0], op 0x08 0x02, 0 :: le16 D.dataLength ++ [D.dataPackets], ?_, ?_, ?_,
      .leReadBufferSize hok⟩
    · exact ask_bytes l (o := 0x2002) ⟨rfl, rfl⟩ (by decide)
    · rw [complete_is (lo := 0x02) (hi := 0x20) (n := 7) (by decide) _ (by simp)]
      simp [Device.serve]
    · simp
  | leFeatures =>
    refine ⟨[0x03, 0x20, 0], op 0x08 0x03, 0 :: le64 D.leFeatures, ?_, ?_, ?_,
      .leReadLocalSupportedFeatures hok (fun j => ⟨fun h => ⟨h, hD.leFeatures j h⟩, And.left⟩)⟩
    · exact ask_bytes l (o := 0x2003) ⟨rfl, rfl⟩ (by decide)
    · rw [complete_is (lo := 0x03) (hi := 0x20) (n := 12) (by decide) _ (by simp)]
      simp [Device.serve]
    · simp
  | advertisingPower =>
    refine ⟨[0x07, 0x20, 0], op 0x08 0x07, [0, twos (D.advertisingPower n)], ?_, ?_, ?_,
      .leReadAdvertisingChannelTxPower hok⟩
    · exact ask_bytes l (o := 0x2007) ⟨rfl, rfl⟩ (by decide)
    · rw [complete_is (lo := 0x07) (hi := 0x20) (n := 5) (by decide) _ (by simp)]
      simp [Device.serve]
    · simp
  | whiteListSize =>
    refine ⟨[0x0F, 0x20, 0], op 0x08 0x0F, [0, D.whiteListSize], ?_, ?_, ?_,
      .leReadWhiteListSize hok⟩
    · exact ask_bytes l (o := 0x200F) ⟨rfl, rfl⟩ (by decide)
    · rw [complete_is (lo := 0x0F) (hi := 0x20) (n := 5) (by decide) _ (by simp)]
      simp [Device.serve]
    · simp
  | states =>
    refine ⟨[0x1C, 0x20, 0], op 0x08 0x1C, 0 :: le64 D.states, ?_, ?_, ?_,
      .leReadSupportedStates hok hD.states⟩
    · exact ask_bytes l (o := 0x201C) ⟨rfl, rfl⟩ (by decide)
    · rw [complete_is (lo := 0x1C) (hi := 0x20) (n := 12) (by decide) _ (by simp)]
      simp [Device.serve]
    · simp
  | received =>
    refine ⟨[0x1F, 0x20, 0], op 0x08 0x1F, 0 :: le16 (D.received n), ?_, ?_, ?_,
      .leTestEnd hok⟩
    · exact ask_bytes l (o := 0x201F) ⟨rfl, rfl⟩ (by decide)
    · rw [complete_is (lo := 0x1F) (hi := 0x20) (n := 6) (by decide) _ (by simp)]
      simp [Device.serve]
    · simp

theorem uart_serves_kept {D : Device} {k : Controller σ E} {stream : σ → List UInt8} {taken served : σ → Nat}
    (hk : Serves D k stream taken served) (s : σ) : served (Uart.read c V k s).2 = served s := by
  rw [uartRead_eq]
  have h0 := hk.peek 0 s
  rcases heh0 : k.peek 0 s with ⟨r, s₁⟩
  rw [heh0] at h0
  cases r with
  | panic => exact h0
  | err e => exact h0
  | ok x =>
    simp only at h0 ⊢
    split
    · have h2 := hk.peek 2 s₁
      rcases heh2 : k.peek 2 s₁ with ⟨r, s₂⟩
      rw [heh2] at h2
      cases r with
      | panic => exact h2.trans h0
      | err e => exact h2.trans h0
      | ok y =>
        simp only at h2 ⊢
        have h3 := hk.readInto (3 + y.toNat) s₂
        rcases heh3 : k.readInto (3 + y.toNat) s₂ with ⟨r, s₃⟩
        rw [heh3] at h3
        cases r <;> exact h3.trans (h2.trans h0)
    · exact h0

/-- **C109.** An application asks any questions, one after the other, and reads once after each: it gets the answers, in
order, each as the device had it when it was asked. Nothing is left. -/
theorem C109_session (vinto : VS → UInt8) {D : Device} (hD : D.Sound c) {k : Controller σ E} {stream : σ → List UInt8}
    {taken served : σ → Nat} (hk : Serves D k stream taken served) (qs : List Question) (s : σ)
    (hs : taken s = (stream s).length) :
    (ask c V k vinto qs s).1 =
        (answers D (served s) qs).map (fun a => .ok (.event (.commandComplete ⟨1, a⟩))) ∧
      taken (ask c V k vinto qs s).2 = (stream (ask c V k vinto qs s).2).length ∧
      served (ask c V k vinto qs s).2 = served s + qs.length := by
  induction qs generalizing s with
  | nil => exact ⟨rfl, hs, rfl⟩
  | cons q qs ih =>
    obtain ⟨header, payload, packet, hw, hi, hp, ⟨code, ps, hl, rfl⟩, he⟩ :=
      C109_answer (VS := VS) c V .uart k vinto D hD (served s) q s
    obtain ⟨ha, rfl, rfl⟩ := wrote c .uart k vinto _ (by cases q <;> simp [Question.command, Command.Constructible]) s _ _ hw
    have hx := (C39_one_framed_write c .uart k vinto q.command
      (by cases q <;> simp [Question.command, Command.Constructible]) ha s).1
    generalize headerBytes .uart (cmdOpcode (q.command (VS := VS))) (cmdParams (q.command (VS := VS))).length = hdr at *
    obtain ⟨-, w2, w3, w4⟩ := hk.write hdr (cmdParams (q.command (VS := VS))) s
    simp only [ask]
    have hx2 : ((q.command (VS := VS)).exec (linkHeader .uart) k vinto s).2 = (k.write hdr (cmdParams (q.command (VS := VS))) s).2 := by
      rw [hx]
    rw [hx2]
    generalize (k.write hdr (cmdParams (q.command (VS := VS))) s).2 = s₁ at *
    have hu : D.uart (served s) (hdr ++ cmdParams (q.command (VS := VS))) = 0x04 :: frame code ps := by
      rw [hi]
      generalize (hdr ++ cmdParams (q.command (VS := VS))).drop (indicator .uart).length = rest at hp
      change (match D.serve (served s) rest with | some packet => 0x04 :: packet | none => []) = _
      rw [hp]
    have hpend : pending stream taken s₁ = 0x04 :: frame code ps ++ [] := by
      unfold pending
      rw [w2, w3, hu, hs, List.drop_left, List.append_nil]
    obtain ⟨s₂, hr, hst, ht⟩ := uart_progress (c := c) (V := V) hk.delivers hk.prompt hl hpend
    have hq := uart_quiet (c := c) (V := V) hk.quiet s₁
    have hv := uart_serves_kept c V hk s₁
    rw [hr] at hq hv ⊢
    simp only at hq hv ⊢
    have hs2 : taken s₂ = (stream s₂).length := by
      rw [hq, ht, w2, w3, hu, hs]
      simp [frame]
      omega
    obtain ⟨i1, i2, i3⟩ := ih s₂ hs2
    refine ⟨?_, i2, ?_⟩
    · rw [i1, hv, w4, he]
      rfl
    · rw [i3, hv, w4, List.length_cons]
      omega

/-- A device whose values change: it counts, and has all channels. -/
def countingDevice : Device where
  cipher key block := ⟨(key.val.zip block.val).map (fun x => x.1 ^^^ x.2), by simp [key.len, block.len]⟩
  random n := UInt64.ofNat (100 + n)
  rssi n _ := -(Int8.ofNat n) - 60
  power _ _ t := match t with | .current => -4 | .maximum => 8
  channels _ _ := ⟨[0xFF, 0xFF, 0xFF, 0xFF, 0x1F], rfl⟩
  hciVersion := 9
  hciRevision := 0x0102
  lmpVersion := 9
  manufacturer := 0x0030
  lmpSubversion := 0x2310
  address := ⟨⟨[1, 2, 3, 4, 5, 6], rfl⟩⟩
  commands := ⟨0x20 :: List.replicate 63 0, rfl⟩
  features := 0
  leFeatures := 1
  states := 0
  dataLength := 251
  dataPackets := 8
  advertisingPower _ := 4
  whiteListSize := 16
  received n := UInt16.ofNat (1000 * n)

theorem bit_lt {b : UInt8} {j : Nat} (hj : b.toNat.testBit j = true) : j < 8 := by
  rcases Nat.lt_or_ge j 8 with h | h
  · exact h
  · rw [Nat.testBit_lt_two_pow (Nat.lt_of_lt_of_le b.toNat_lt (Nat.pow_le_pow_right (by decide) h))] at hj
    cases hj

theorem countingDevice_sound : countingDevice.Sound c where
  channels := by
    rintro _ _ i j ⟨b, hb, hj⟩
    have hj8 := bit_lt hj
    refine ⟨hj8, ?_⟩
    match i, hb with
    | 0, _ => omega
    | 1, _ => omega
    | 2, _ => omega
    | 3, _ => omega
    | 4, hb =>
      cases hb
      have h : ∀ j < 8, (0x1F : UInt8).toNat.testBit j = true → 8 * 4 + j < 37 := by decide
      exact h j hj8 hj
    | i + 5, hb => simp [countingDevice] at hb
  commands := by
    rintro i j ⟨b, hb, hj⟩
    match i, hb with
    | 0, hb =>
      cases hb
      have h : ∀ j < 8, (0x20 : UInt8).toNat.testBit j = true → j = 5 := by decide
      have hj := h j (bit_lt hj) hj
      subst hj
      exact .inl (by decide)
    | i + 1, hb =>
      simp only [countingDevice, List.getElem?_cons_succ, List.getElem?_replicate] at hb
      split at hb
      · cases hb
        simp at hj
      · cases hb
  features j h := by simp [countingDevice] at h
  leFeatures j h := by
    have : (countingDevice.leFeatures).toNat = 2 ^ 0 := rfl
    rw [this, Nat.testBit_two_pow] at h
    exact .inl (by simp at h; omega)
  states j h := by simp [countingDevice] at h

/-- Four questions to it; the second answer to the same question is another one. -/
example (c : Cfg) : (ask c demoVendor (deviceFifo countingDevice) (fun _ : Unit => 0)
      [.rssi ⟨0x40⟩, .random, .rssi ⟨0x40⟩, .buffers] (([], 0), 0)).1 =
    [.ok (.event (.commandComplete ⟨1, .readRssi ⟨.success, ⟨0x40⟩, -60⟩⟩)),
     .ok (.event (.commandComplete ⟨1, .leRand ⟨.success, 101⟩⟩)),
     .ok (.event (.commandComplete ⟨1, .readRssi ⟨.success, ⟨0x40⟩, -62⟩⟩)),
     .ok (.event (.commandComplete ⟨1, .leReadBufferSize ⟨.success, 251, 8⟩⟩))] := by
  rw [(C109_session c demoVendor _ (countingDevice_sound c) (deviceFifo_serves _) _ _ rfl).1]
  rfl

end Bt
