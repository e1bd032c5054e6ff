import Verif.Lemmas.Echo
import Verif.Props.Commands
import Verif.Props.StandardReports

/-! # C84: what was reported can be handed back unchanged -/

namespace Bt

open Spec

variable {σ E ε : Type} (c : Cfg) (V : Vendor)

/-! ## Connections -/

/-- **C84.** A command about the connection of an event carries the two bytes that were the handle in the event,
wherever the event had it. -/
theorem C84_handle {code : UInt8} {ps : List UInt8} {e : V.Ev}
    (he : Event.new c V (frame code ps) = .ok e) {cmd : Command V.VStatus} {h : ConnectionHandle}
    (hh : eventHandle e = some h) (hc : commandHandle cmd = some h) (hb : cmd.Constructible c)
    (ha : cmdReject (E := E) cmd = none) (l : Link) (k : Controller σ E) (vinto : V.VStatus → UInt8) (s : σ) :
    ∃ i qs, handleOffset code ps = some i ∧
      (cmd.exec (linkHeader l) (recording k) vinto (s, [])).2.2 =
        [.write (headerBytes l (cmdOpcode cmd) qs.length) qs] ∧
      bytesAt qs 0 2 = bytesAt ps i 2 ∧ (bytesAt ps i 2).length = 2 := by
  obtain ⟨code', ps', hf, -, hs⟩ := (C09_sound_and_complete c V _ _).mp he
  obtain ⟨rfl, rfl⟩ := frame_inj hf
  obtain ⟨i, h1, h2⟩ := event_handle hs hh
  exact ⟨i, _, h1, C39_trace c l k vinto cmd hb ha s [], by rw [command_handle hc, h2], by rw [h2]; rfl⟩

/-- A key is asked for and refused. -/
example : Event.new ⟨false, false⟩ demoVendor
      (frame 0x3E (0x05 :: [0x34, 0x12] ++ [1, 2, 3, 4, 5, 6, 7, 8] ++ [9, 10])) =
        .ok (.leLongTermKeyRequest ⟨⟨0x1234⟩, 0x0807060504030201, 0x0A09⟩) ∧
    ((Command.leLongTermKeyRequestNegativeReply (VS := demoVendor.VStatus) ⟨0x1234⟩).exec (linkHeader .uart)
      (recording logController) id ([], [])).2.2 = [.write [0x01, 0x1B, 0x20, 2] [0x34, 0x12]] :=
  ⟨rfl, by decide +kernel⟩

/-- **C84.** The same for the handles of Number Of Completed Packets: the `i`-th one is at `4 i + 1`. -/
theorem C84_completed {ps : List UInt8} {e : NumberOfCompletedPackets}
    (he : Event.new c V (frame 0x13 ps) = .ok (.numberOfCompletedPackets e)) {pairs}
    (hi : e.iter (ε := ε) = .ok pairs) {i : Nat} {p : NumberOfCompletedPacketsPair} (hp : pairs[i]? = some p)
    {cmd : Command V.VStatus} (hc : commandHandle cmd = some p.connHandle) (hb : cmd.Constructible c)
    (ha : cmdReject (E := E) cmd = none) (l : Link) (k : Controller σ E) (vinto : V.VStatus → UInt8) (s : σ) :
    ∃ qs, (cmd.exec (linkHeader l) (recording k) vinto (s, [])).2.2 =
        [.write (headerBytes l (cmdOpcode cmd) qs.length) qs] ∧
      bytesAt qs 0 2 = bytesAt ps (4 * i + 1) 2 ∧ (bytesAt ps (4 * i + 1) 2).length = 2 := by
  obtain ⟨n, xs, hf, -, -, hx⟩ := C14_pairs c V (ε := ε) _ _ he
  obtain ⟨-, rfl⟩ := frame_inj hf
  rw [hi] at hx
  cases hx
  rw [List.getElem?_map] at hp
  obtain ⟨x, hx, rfl⟩ := Option.map_eq_some_iff.mp hp
  have h2 := pair_bytesAt hx n
  exact ⟨_, C39_trace c l k vinto cmd hb ha s [], by rw [command_handle hc, h2], by rw [h2]; rfl⟩

example : bytesAt (2 :: pairsBytes [(0x0201, 0x0403), (0x0605, 0x0807)]) (4 * 1 + 1) 2 = [5, 6] := rfl

/-! ## Devices -/

/-- **C84.** A command about the peer of a new connection carries the address type and the address that were in
the event. -/
theorem C84_peer {ps : List UInt8} {e : LeConnectionComplete V.VStatus}
    (he : Event.new c V (frame 0x3E ps) = .ok (.leConnectionComplete e)) {cmd : Command V.VStatus}
    (hn : Names e.peerBdAddr cmd) (hb : cmd.Constructible c) (ha : cmdReject (E := E) cmd = none)
    (l : Link) (k : Controller σ E) (vinto : V.VStatus → UInt8) (s : σ) :
    ∃ qs, (cmd.exec (linkHeader l) (recording k) vinto (s, [])).2.2 =
        [.write (headerBytes l (cmdOpcode cmd) qs.length) qs] ∧
      bytesAt qs (deviceOffset (cmdOpcode cmd)) 7 = bytesAt ps 5 7 ∧ (bytesAt ps 5 7).length = 7 := by
  obtain ⟨code, ps', hf, -, hs⟩ := (C09_sound_and_complete c V _ _).mp he
  obtain ⟨rfl, rfl⟩ := frame_inj hf
  have key : bytesAt ps 5 7 = addrTypeBytes e.peerBdAddr := by
    cases hs with
    | leConnectionComplete _ _ =>
      rename_i st s h role peer a l t i clock _ _
      have := bytesAt_append (0x01 :: st :: le16 h ++ [roleCode role]) (addrTypeBytes peer)
        (le16 a ++ le16 l ++ le16 t ++ [clockCode clock]) 5 7 (by simp) (addrType_seven peer)
      simpa only [List.append_assoc, List.cons_append, List.nil_append] using this
  exact ⟨_, C39_trace c l k vinto cmd hb ha s [], by rw [names_device hn, key], by rw [key, addrType_seven]⟩

/-- The peer at offset 5, a connection to the same device again, and the place of its address. -/
example : bytesAt (0x01 :: 0 :: [1, 0] ++ 0 :: (1 :: [1, 2, 3, 4, 5, 6]) ++ [6, 0] ++ [0, 0] ++ [20, 0] ++ [3]) 5 7 =
      [1, 1, 2, 3, 4, 5, 6] ∧
    Names (VS := demoVendor.VStatus) (.random ⟨⟨[1, 2, 3, 4, 5, 6], rfl⟩⟩) (.leCreateConnection
      ⟨⟨Duration.millis 20, Duration.millis 10⟩, .useAddress, .randomDeviceAddress ⟨⟨[1, 2, 3, 4, 5, 6], rfl⟩⟩, .pub,
        ⟨Duration.millis 10, Duration.millis 20, 0, Duration.secs 1⟩, ⟨Duration.millis 10, Duration.millis 20⟩⟩) ∧
    deviceOffset 0x200D = 5 := ⟨rfl, ⟨rfl, rfl⟩, rfl⟩

/-- **C84.** A command about a device that was heard carries the address type and the address of its advertising
report, whichever of the reports of the event it was. -/
theorem C84_report (n : UInt8) (rs : List RawReport) (hr : ∀ r ∈ rs, r.Conforms c) {e : LeAdvertisingReport}
    (he : Event.new c V (frame 0x3E (0x02 :: n :: rawBytes rs)) = .ok (.leAdvertisingReport e))
    {heard : List LeAdvertisement} (hi : e.iter (ε := ε) = .ok heard) {i : Nat} {r : RawReport}
    (hri : rs[i]? = some r) :
    ∃ a, heard[i]? = some a ∧ ∀ (cmd : Command V.VStatus), Names a.address cmd → cmd.Constructible c →
      cmdReject (E := E) cmd = none → ∀ (l : Link) (k : Controller σ E) (vinto : V.VStatus → UInt8) (s : σ),
      ∃ qs, (cmd.exec (linkHeader l) (recording k) vinto (s, [])).2.2 =
          [.write (headerBytes l (cmdOpcode cmd) qs.length) qs] ∧
        bytesAt qs (deviceOffset (cmdOpcode cmd)) 7 = r.addressType :: r.address.val := by
  have hl : (rawBytes rs).length ≤ 253 := by
    obtain ⟨code, ps, hf, h, -⟩ := (C09_sound_and_complete c V _ _).mp he
    obtain ⟨-, rfl⟩ := frame_inj hf
    simp only [List.length_cons] at h
    omega
  have hp : ∀ r ∈ rs, r.addressType ≤ 1 := by
    refine Classical.byContradiction fun h => ?_
    obtain ⟨pre, x, post, rfl, h2, h3⟩ := raw_split h
    rw [C81_identity c V n pre x post (fun y hy => hr y (by
      rcases List.mem_append.mp hy with hy | hy
      · simp [hy]
      · rw [List.mem_singleton.mp hy]; simp)) h2 (UInt8.not_le.mp h3) hl] at he
    cases he
  obtain ⟨e', as, h1, h2, h3, h4⟩ := (C81_delivered_partial c V (ε := ε) n rs hr hl).mpr hp
  rw [he] at h1
  cases h1
  rw [hi] at h2
  cases h2
  obtain ⟨hi1, hi2⟩ := List.getElem?_eq_some_iff.mp hri
  refine ⟨heard[i], List.getElem?_eq_getElem (by omega), ?_⟩
  intro cmd hn hb ha l k vinto s
  refine ⟨_, C39_trace c l k vinto cmd hb ha s [], ?_⟩
  have hm : (r, heard[i]) ∈ rs.zip heard := by
    rw [← hi2, List.mem_iff_getElem]
    exact ⟨i, by simp; omega, by simp⟩
  rw [names_device hn, (h4 _ hm).address]

/-- A device that was heard is put on the white list. -/
example : (∀ r ∈ [demoRaws[0]], r.Conforms ⟨true, false⟩) ∧
    (∃ e, Event.new ⟨true, false⟩ demoVendor (frame 0x3E (0x02 :: 1 :: rawBytes [demoRaws[0]])) =
      .ok (.leAdvertisingReport e)) ∧
    ((Command.leAddDeviceToWhiteList (VS := demoVendor.VStatus) (.random ⟨⟨[1, 2, 3, 4, 5, 6], rfl⟩⟩)).exec
      (linkHeader .uart) (recording logController) id ([], [])).2.2 =
        [.write [0x01, 0x11, 0x20, 7] [1, 1, 2, 3, 4, 5, 6]] := by
  have hc : ∀ r ∈ [demoRaws[0]], r.Conforms ⟨true, false⟩ := by
    intro r hr
    rw [List.mem_singleton.mp hr]
    exact ⟨by decide, .inl (by decide), by decide, .inl (by decide)⟩
  refine ⟨hc, ?_, by decide +kernel⟩
  obtain ⟨e, as, h, -, -⟩ := (C81_delivered_partial ⟨true, false⟩ demoVendor (ε := Unit) 1 [demoRaws[0]] hc
    (by decide)).mpr (by intro r hr; rw [List.mem_singleton.mp hr]; decide)
  exact ⟨e, h⟩

/-! ## Keys and random numbers -/

/-- **C84.** A number obtained with LE Rand and used to start encryption is sent with the bytes of the reply. -/
theorem C84_rand {ps : List UInt8} {n : UInt8} {r : LeRandom V.VStatus}
    (he : Event.new c V (frame 0x0E ps) = .ok (.commandComplete ⟨n, .leRand r⟩)) (p : EncryptionParameters)
    (hp : p.randomNumber = r.randomNumber) (l : Link) (k : Controller σ E) (vinto : V.VStatus → UInt8) (s : σ) :
    ∃ qs, ((Command.leStartEncryption p).exec (linkHeader l) (recording k) vinto (s, [])).2.2 =
        [.write (headerBytes l 0x2019 qs.length) qs] ∧
      bytesAt qs 2 8 = bytesAt ps 4 8 ∧ (bytesAt ps 4 8).length = 8 := by
  obtain ⟨code, ps', hf, -, hs⟩ := (C09_sound_and_complete c V _ _).mp he
  obtain ⟨rfl, rfl⟩ := frame_inj hf
  have key := (reply_value hs).1 _ rfl
  refine ⟨_, C39_trace c l k vinto (.leStartEncryption p) trivial rfl s [], ?_, by rw [key]; rfl⟩
  rw [key, ← hp]
  rfl

example : Event.new ⟨false, false⟩ demoVendor (frame 0x0E (1 :: [0x18, 0x20] ++ 0 :: [1, 2, 3, 4, 5, 6, 7, 8])) =
    .ok (.commandComplete ⟨1, .leRand ⟨.success, 0x0807060504030201⟩⟩) := rfl

/-- **C84.** A block obtained with LE Encrypt and used as a key, or encrypted again, is sent with the bytes of the
reply. -/
theorem C84_encrypted {ps : List UInt8} {n : UInt8} {r : EncryptedReturnParameters V.VStatus}
    (he : Event.new c V (frame 0x0E ps) = .ok (.commandComplete ⟨n, .leEncrypt r⟩)) {cmd : Command V.VStatus}
    {i : Nat} (hi : (i, r.encryptedData) ∈ commandBlocks cmd) (l : Link) (k : Controller σ E)
    (vinto : V.VStatus → UInt8) (s : σ) :
    ∃ qs, (cmd.exec (linkHeader l) (recording k) vinto (s, [])).2.2 =
        [.write (headerBytes l (cmdOpcode cmd) qs.length) qs] ∧
      bytesAt qs i 16 = bytesAt ps 4 16 ∧ (bytesAt ps 4 16).length = 16 := by
  obtain ⟨code, ps', hf, -, hs⟩ := (C09_sound_and_complete c V _ _).mp he
  obtain ⟨rfl, rfl⟩ := frame_inj hf
  have key := (reply_value hs).2.1 _ rfl
  have hb : cmd.Constructible c ∧ cmdReject (E := E) cmd = none := by
    cases cmd <;> first | exact ⟨trivial, rfl⟩ | cases hi
  exact ⟨_, C39_trace c l k vinto cmd hb.1 hb.2 s [], by rw [block_bytesAt hi, key],
    by rw [key, r.encryptedData.len]⟩

/-- The result of one encryption is the key of the next. -/
example : ∃ d : Arr 16, Event.new ⟨false, false⟩ demoVendor
      (frame 0x0E (1 :: [0x17, 0x20] ++ 0 :: [1, 2, 3, 4, 5, 6, 7, 8, 9, 10, 11, 12, 13, 14, 15, 16])) =
        .ok (.commandComplete ⟨1, .leEncrypt ⟨.success, d⟩⟩) ∧
    (0, d) ∈ commandBlocks (VS := demoVendor.VStatus) (.leEncrypt ⟨d, Arr.zero 16⟩) :=
  ⟨⟨[1, 2, 3, 4, 5, 6, 7, 8, 9, 10, 11, 12, 13, 14, 15, 16], rfl⟩, rfl, by simp [commandBlocks]⟩

/-- **C84.** The channel map of a connection, used as the host's channel classification, is sent with the bytes of
the reply. -/
theorem C84_channel_map {ps : List UInt8} {n : UInt8} {r : ChannelMapParameters V.VStatus}
    (he : Event.new c V (frame 0x0E ps) = .ok (.commandComplete ⟨n, .leReadChannelMap r⟩))
    (ha : ∃ b ∈ r.channelMap.arr.val, b ≠ 0) (l : Link) (k : Controller σ E) (vinto : V.VStatus → UInt8) (s : σ) :
    ((Command.leSetHostChannelClassification r.channelMap).exec (linkHeader l) (recording k) vinto (s, [])).2.2 =
        [.write (headerBytes l 0x2014 5) (bytesAt ps 6 5)] := by
  obtain ⟨code, ps', hf, -, hs⟩ := (C09_sound_and_complete c V _ _).mp he
  obtain ⟨rfl, rfl⟩ := frame_inj hf
  have key := (reply_value hs).2.2 _ rfl
  have hr : cmdReject (E := E) (Command.leSetHostChannelClassification (VS := V.VStatus) r.channelMap) = none := by
    obtain ⟨b, h1, h2⟩ := ha
    exact if_neg fun h => h2 (h b h1)
  have := C39_trace c l k vinto (.leSetHostChannelClassification r.channelMap) trivial hr s []
  rw [key]
  show _ = [CtlOp.write (headerBytes l 0x2014 5) r.channelMap.arr.val]
  rw [this]
  show [CtlOp.write (headerBytes l 0x2014 r.channelMap.arr.val.length) r.channelMap.arr.val] = _
  rw [r.channelMap.arr.len]

example : Event.new ⟨false, false⟩ demoVendor (frame 0x0E (1 :: [0x15, 0x20] ++ 0 :: [1, 0] ++ [7, 0, 0, 0, 0x10])) =
    .ok (.commandComplete ⟨1, .leReadChannelMap ⟨.success, ⟨1⟩, ⟨⟨[7, 0, 0, 0, 0x10], rfl⟩⟩⟩⟩) := rfl

/-- **C84**, two devices. The central starts encryption; the other device is then asked for the key with the random
number and the diversifier of the central's command, byte by byte, and a handle of its own. It gets the numbers
that the central used, and if it answers with the same key, the same bytes of the key are sent. -/
theorem C84_two_devices (p : EncryptionParameters) (l l' : Link) (k : Controller σ E) (s : σ) :
    ∃ qs, (Hci.leStartEncryption (linkHeader l) (recording k) p (s, [])).2.2 =
        [.write (headerBytes l 0x2019 28) qs] ∧
      (∀ h : UInt16, Event.new c V (frame 0x3E (0x05 :: le16 h ++ bytesAt qs 2 8 ++ bytesAt qs 10 2)) =
        .ok (.leLongTermKeyRequest ⟨⟨h⟩, p.randomNumber, p.encryptedDiversifier⟩)) ∧
      ∀ h : UInt16, (Hci.leLongTermKeyRequestReply (linkHeader l') (recording k) ⟨h⟩ p.longTermKey
        (s, [])).2.2 = [.write (headerBytes l' 0x201A 18) (le16 h ++ bytesAt qs 12 16)] := by
  have hk : bytesAt (cmdParams (VS := V.VStatus) (.leStartEncryption p)) 12 16 = p.longTermKey.val :=
    block_bytesAt (by simp [commandBlocks])
  refine ⟨cmdParams (VS := V.VStatus) (.leStartEncryption p), ?_, ?_, ?_⟩
  · rw [show (28 : Nat) = (cmdParams (VS := V.VStatus) (.leStartEncryption p)).length by
      simp [cmdParams, p.longTermKey.len]]
    exact C39_trace c l k (fun _ => 0) (.leStartEncryption p) trivial rfl s []
  · intro h
    exact (C09_sound_and_complete c V _ _).mpr ⟨_, _, rfl, by simp [bytesAt]; omega, .leLongTermKeyRequest⟩
  · intro h
    rw [hk]
    have := C39_trace c l' k (fun _ => 0) (.leLongTermKeyRequestReply (VS := V.VStatus) ⟨h⟩ p.longTermKey) trivial
      rfl s []
    rw [show (18 : Nat) = (le16 h ++ p.longTermKey.val).length by simp [p.longTermKey.len]]
    exact this

example : Event.new ⟨false, false⟩ demoVendor (frame 0x3E (0x05 :: [7, 0] ++ [1, 2, 3, 4, 5, 6, 7, 8] ++ [9, 10])) =
    .ok (.leLongTermKeyRequest ⟨⟨7⟩, 0x0807060504030201, 0x0A09⟩) := rfl

end Bt
