import Verif.Lemmas.Exec
import Verif.Spec.CommandStream

/-! # C39-C43, C48: commands -/

namespace Bt

open Spec

variable {σ E VS : Type}

/-! ## C39: one framed write -/

theorem cmdParams_length (cmd : Command VS) (ha : cmdReject (E := E) cmd = none) :
    (cmdParams cmd).length ≤ 32 := by
  cases cmd with
  | leSetAdvertisingData d =>
    simp only [cmdReject] at ha
    split at ha
    · cases ha
    · simp [cmdParams, outboundData]; omega
  | leSetScanResponseData d =>
    simp only [cmdReject] at ha
    split at ha
    · cases ha
    · simp [cmdParams, outboundData]; omega
  | leCreateConnection p =>
    simp only [cmdParams]
    cases p.initiatorFilterPolicy <;> simp
  | leSetHostChannelClassification ch => simp [cmdParams, ch.arr.len]
  | leEncrypt p => simp [cmdParams, p.key.len, p.plaintextData.len]
  | leStartEncryption p => simp [cmdParams, p.longTermKey.len]
  | leLongTermKeyRequestReply h key => simp [cmdParams, key.len]
  | _ => simp [cmdParams]

/-- **C39.** A command with acceptable arguments is exactly one `Controller::write` of the prescribed header
and parameters: it has the final state and (up to the wrapping of the error) the result of that write. The
parameter length fits the length byte, so the header is never truncated. -/
theorem C39_one_framed_write (c : Cfg) (l : Link) (k : Controller σ E) (vinto : VS → UInt8)
    (cmd : Command VS) (hc : cmd.Constructible c) (ha : cmdReject (E := E) cmd = none) (s : σ) :
    cmd.exec (linkHeader l) k vinto s =
      ((k.write (headerBytes l (cmdOpcode cmd) (cmdParams cmd).length) (cmdParams cmd) s).1.mapErr commError,
       (k.write (headerBytes l (cmdOpcode cmd) (cmdParams cmd).length) (cmdParams cmd) s).2) ∧
    (cmdParams cmd).length < 256 := by
  refine ⟨?_, ?_⟩
  · rw [exec_eq c l k vinto cmd hc, ha]
    rfl
  · have := cmdParams_length cmd ha
    omega

example : (Command.disconnect (VS := Empty) ⟨0x0201⟩ .authFailure).Constructible ⟨false, false⟩ ∧
    cmdReject (E := Empty) (VS := Empty) (.disconnect ⟨0x0201⟩ .authFailure) = none := ⟨trivial, rfl⟩

/-- **C39.** The operations performed on the controller by an accepted command: one write, nothing else. -/
theorem C39_trace (c : Cfg) (l : Link) (k : Controller σ E) (vinto : VS → UInt8)
    (cmd : Command VS) (hc : cmd.Constructible c) (ha : cmdReject (E := E) cmd = none) (s : σ)
    (log : List CtlOp) :
    (cmd.exec (linkHeader l) (recording k) vinto (s, log)).2.2 =
      log ++ [.write (headerBytes l (cmdOpcode cmd) (cmdParams cmd).length) (cmdParams cmd)] := by
  rw [(C39_one_framed_write c l (recording k) vinto cmd hc ha (s, log)).1]
  rfl

/-- A test controller: every write succeeds and is logged. -/
def logController : Controller (List (List UInt8 × List UInt8)) Empty where
  write h p := fun s => (.ok (), s ++ [(h, p)])
  readInto _ := fun s => (.err .wouldBlock, s)
  peek _ := fun s => (.err .wouldBlock, s)

example : (Command.exec (VS := Empty) uartHeader logController Empty.elim
    (.disconnect ⟨0x0201⟩ .authFailure) []) =
    (.ok (), [([0x01, 0x06, 0x04, 3], [0x01, 0x02, 0x05])]) := rfl

example : (cmdReject (E := Empty) (VS := Empty) (.leSetAdvertisingParameters
    ⟨⟨Duration.millis 20, Duration.millis 30, .connectableUndirected⟩, .random, .pub ⟨Arr.zero 6⟩, 7,
      .allowConnectionAndScan⟩)) = none ∧
    (Command.leSetAdvertisingParameters (VS := Empty)
    ⟨⟨Duration.millis 20, Duration.millis 30, .connectableUndirected⟩, .random, .pub ⟨Arr.zero 6⟩, 7,
      .allowConnectionAndScan⟩).Constructible ⟨true, true⟩ :=
  ⟨rfl, .connectableUndirected, Or.inr ⟨Duration.millis 20, Duration.millis 30, by decide +kernel⟩⟩

/-! ## C40: rejected arguments -/

/-- **C40.** A command that rejects its arguments returns the documented error and leaves the controller (and
hence any log of its operations) alone. -/
theorem C40_rejected (c : Cfg) (l : Link) (k : Controller σ E) (vinto : VS → UInt8)
    (cmd : Command VS) (hc : cmd.Constructible c) (e : HostError E VS) (hr : cmdReject cmd = some e) (s : σ) :
    cmd.exec (linkHeader l) k vinto s = (.err (.other e), s) := by
  rw [exec_eq c l k vinto cmd hc, hr]
  rfl

example : (Command.exec (VS := Empty) uartHeader logController Empty.elim (.leReceiverTest 40) []) =
      (.err (.other (.invalidTestChannel 40)), []) ∧
    cmdReject (E := Empty) (VS := Empty) (.leReceiverTest 40) = some (.invalidTestChannel 40) := ⟨rfl, rfl⟩

/-- **C40.** Conversely an error that is not a communication error is returned only for rejected arguments,
and is the documented one. -/
theorem C40_only_rejected (c : Cfg) (l : Link) (k : Controller σ E) (vinto : VS → UInt8)
    (cmd : Command VS) (hc : cmd.Constructible c) (e : HostError E VS) (he : ∀ x, e ≠ .comm x) (s : σ) :
    (cmd.exec (linkHeader l) k vinto s).1 = .err (.other e) ↔ cmdReject cmd = some e := by
  constructor
  · intro h
    cases hr : cmdReject (E := E) cmd with
    | some e' =>
      rw [C40_rejected c l k vinto cmd hc e' hr] at h
      cases h
      rfl
    | none =>
      rw [(C39_one_framed_write c l k vinto cmd hc hr s).1] at h
      revert h
      simp only
      generalize (k.write _ _ s).1 = r
      cases r with
      | ok _ => intro h; cases h
      | panic => intro h; cases h
      | err x =>
        cases x with
        | wouldBlock => intro h; cases h
        | other x =>
          intro h
          simp only [Res.mapErr_err, commError, Res.err.injEq, Nb.other.injEq] at h
          exact absurd h.symm (he x)
  · intro h
    rw [C40_rejected c l k vinto cmd hc e h]

example : (Command.exec (VS := Empty) uartHeader logController Empty.elim (.disconnect ⟨1⟩ .success) []).1 =
    .err (.other (.badDisconnectionReason .success)) := rfl

/-- What `cmdReject` says. -/
theorem cmdReject_iff (cmd : Command VS) (e : HostError E VS) :
    cmdReject cmd = some e ↔
      (∃ h r, cmd = .disconnect h r ∧ e = .badDisconnectionReason r ∧
        r ≠ .authFailure ∧ r ≠ .remoteTerminationByUser ∧ r ≠ .remoteTerminationLowResources ∧
        r ≠ .remoteTerminationPowerOff ∧ r ≠ .unsupportedRemoteFeature ∧
        r ≠ .pairingWithUnitKeyNotSupported ∧ r ≠ .unacceptableConnectionParameters) ∨
      (∃ a, cmd = .leSetRandomAddress a ∧ e = .badRandomAddress a ∧ ¬ ValidRandomAddress a) ∨
      (∃ p, cmd = .leSetAdvertisingParameters p ∧ e = .badChannelMap 0 ∧ p.advertisingChannelMap = 0) ∨
      (∃ d, (cmd = .leSetAdvertisingData d ∨ cmd = .leSetScanResponseData d) ∧
        e = .advertisingDataTooLong d.length ∧ 31 < d.length) ∨
      (∃ ch, cmd = .leSetHostChannelClassification ch ∧ e = .noValidChannel ∧ ∀ b ∈ ch.arr.val, b = 0) ∨
      (∃ ch, (cmd = .leReceiverTest ch ∨ ∃ n p, cmd = .leTransmitterTest ch n p) ∧
        e = .invalidTestChannel ch ∧ 39 < ch.toNat) ∨
      (∃ ch n p, cmd = .leTransmitterTest ch n p ∧ e = .invalidTestPayloadLength n ∧ ch.toNat ≤ 39 ∧
        37 < n) := by
  cases cmd with
  | disconnect h r =>
    have hd : disconnectCode r = none ↔
        r ≠ .authFailure ∧ r ≠ .remoteTerminationByUser ∧ r ≠ .remoteTerminationLowResources ∧
        r ≠ .remoteTerminationPowerOff ∧ r ≠ .unsupportedRemoteFeature ∧
        r ≠ .pairingWithUnitKeyNotSupported ∧ r ≠ .unacceptableConnectionParameters := by
      cases r <;> simp [disconnectCode]
    simp only [cmdReject]
    constructor
    · intro he
      split at he
      · next hn => exact Or.inl ⟨h, r, rfl, (Option.some.inj he).symm, hd.mp hn⟩
      · cases he
    · rintro (⟨h', r', hr, he, hn⟩ | hx)
      · cases hr
        rw [if_pos (hd.mpr hn), he]
      · simp at hx
  | leTransmitterTest ch n p =>
    simp only [cmdReject]
    by_cases h : 39 < ch.toNat
    · simp [h, eq_comm]
      omega
    · have h2 : ch.toNat ≤ 39 := by omega
      by_cases h' : 37 < n
      · simp [h, h']
        constructor
        · rintro rfl; exact ⟨ch, n, ⟨rfl, rfl⟩, rfl, h2, h'⟩
        · rintro ⟨_, _, ⟨rfl, rfl⟩, rfl, _⟩; rfl
      · simp [h, h']
        intros
        omega
  | leSetRandomAddress a => by_cases h : ValidRandomAddress a <;> simp [cmdReject, h, eq_comm]
  | leSetAdvertisingParameters p =>
    by_cases h : p.advertisingChannelMap = 0 <;> simp [cmdReject, h, eq_comm]
  | leSetAdvertisingData d => by_cases h : 31 < d.length <;> simp [cmdReject, h, eq_comm]
  | leSetScanResponseData d => by_cases h : 31 < d.length <;> simp [cmdReject, h, eq_comm]
  | leReceiverTest ch => by_cases h : 39 < ch.toNat <;> simp [cmdReject, h, eq_comm]
  | leSetHostChannelClassification ch =>
    simp only [cmdReject]
    split
    · next h => simp [eq_comm]; exact fun _ => h
    · next h => simp; intro _; simpa using h
  | _ => simp [cmdReject]

/-- **C40.** The documented conditions: which calls return an error of their own, and which error. -/
theorem C40_conditions (c : Cfg) (l : Link) (k : Controller σ E) (vinto : VS → UInt8)
    (cmd : Command VS) (hc : cmd.Constructible c) (e : HostError E VS) (he : ∀ x, e ≠ .comm x) (s : σ) :
    (cmd.exec (linkHeader l) k vinto s).1 = .err (.other e) ↔
      (∃ h r, cmd = .disconnect h r ∧ e = .badDisconnectionReason r ∧
        r ≠ .authFailure ∧ r ≠ .remoteTerminationByUser ∧ r ≠ .remoteTerminationLowResources ∧
        r ≠ .remoteTerminationPowerOff ∧ r ≠ .unsupportedRemoteFeature ∧
        r ≠ .pairingWithUnitKeyNotSupported ∧ r ≠ .unacceptableConnectionParameters) ∨
      (∃ a, cmd = .leSetRandomAddress a ∧ e = .badRandomAddress a ∧ ¬ ValidRandomAddress a) ∨
      (∃ p, cmd = .leSetAdvertisingParameters p ∧ e = .badChannelMap 0 ∧ p.advertisingChannelMap = 0) ∨
      (∃ d, (cmd = .leSetAdvertisingData d ∨ cmd = .leSetScanResponseData d) ∧
        e = .advertisingDataTooLong d.length ∧ 31 < d.length) ∨
      (∃ ch, cmd = .leSetHostChannelClassification ch ∧ e = .noValidChannel ∧ ∀ b ∈ ch.arr.val, b = 0) ∨
      (∃ ch, (cmd = .leReceiverTest ch ∨ ∃ n p, cmd = .leTransmitterTest ch n p) ∧
        e = .invalidTestChannel ch ∧ 39 < ch.toNat) ∨
      (∃ ch n p, cmd = .leTransmitterTest ch n p ∧ e = .invalidTestPayloadLength n ∧ ch.toNat ≤ 39 ∧
        37 < n) := by
  rw [C40_only_rejected c l k vinto cmd hc e he s, cmdReject_iff]

example : cmdReject (E := Empty) (VS := Empty) (.leTransmitterTest 39 38 .all1) =
    some (.invalidTestPayloadLength 38) := rfl

/-! ## C41: the result is the controller's -/

/-- **C41.** Ok, `WouldBlock` and communication errors are exactly those of the write. -/
theorem C41_result (c : Cfg) (l : Link) (k : Controller σ E) (vinto : VS → UInt8)
    (cmd : Command VS) (hc : cmd.Constructible c) (ha : cmdReject (E := E) cmd = none) (s : σ) :
    let w := k.write (headerBytes l (cmdOpcode cmd) (cmdParams cmd).length) (cmdParams cmd) s
    let r := cmd.exec (linkHeader l) k vinto s
    (r.1 = .ok () ↔ w.1 = .ok ()) ∧
    (r.1 = .err .wouldBlock ↔ w.1 = .err .wouldBlock) ∧
    (∀ e, r.1 = .err (.other (.comm e)) ↔ w.1 = .err (.other e)) ∧
    (∀ e, r.1 = .err (.other e) → ∃ x, e = .comm x) ∧
    (r.1 = .panic ↔ w.1 = .panic) ∧
    r.2 = w.2 := by
  intro w r
  have hr : r = (w.1.mapErr commError, w.2) := (C39_one_framed_write c l k vinto cmd hc ha s).1
  rw [hr]
  generalize w = w'
  obtain ⟨x, s'⟩ := w'
  cases x with
  | ok _ => simp
  | panic => simp
  | err e =>
    cases e with
    | wouldBlock => simp [commError]
    | other e => simp [commError]

/-- A write that would block, and one that fails. -/
example : (Command.exec (VS := Empty) (E := Bool) uartHeader
      ⟨fun _ _ s => (.err .wouldBlock, s + 1), fun _ s => (.panic, s), fun _ s => (.panic, s)⟩ Empty.elim
      .reset (0 : Nat)) = (.err .wouldBlock, 1) ∧
    (Command.exec (VS := Empty) (E := Bool) uartHeader
      ⟨fun _ _ s => (.err (.other true), s + 1), fun _ s => (.panic, s), fun _ s => (.panic, s)⟩ Empty.elim
      .reset (0 : Nat)) = (.err (.other (.comm true)), 1) := ⟨rfl, rfl⟩

/-! ## C42: command streams -/

theorem parse_packet (fuel : Nat) (op : UInt16) (params rest : List UInt8) (hl : params.length < 256) :
    parseFuel (fuel + 1) (headerBytes .uart op params.length ++ params ++ rest) =
      (parseFuel fuel rest).map ((op, params) :: ·) := by
  have h1 : ∃ a b, le16 op = [a, b] := ⟨_, _, rfl⟩
  obtain ⟨a, b, hab⟩ := h1
  have h2 : UInt16.ofNat (leVal [a, b]) = op := by rw [← hab, leVal_eq_leNat, ofNat_leNat_le16]
  have h3 : (UInt8.ofNat params.length).toNat = params.length := by
    rw [UInt8.toNat_ofNat']; omega
  simp only [headerBytes, hab, List.cons_append, List.nil_append, parseFuel, h3, h2]
  rw [if_pos (by simp)]
  simp

theorem parse_mono (fuel : Nat) : ∀ (fuel' : Nat) (bs : List UInt8), bs.length ≤ fuel → bs.length ≤ fuel' →
    parseFuel fuel bs = parseFuel fuel' bs := by
  induction fuel with
  | zero =>
    intro fuel' bs h h'
    have : bs = [] := List.length_eq_zero_iff.mp (by omega)
    subst this
    cases fuel' <;> rfl
  | succ n ih =>
    intro fuel' bs h h'
    match bs, fuel' with
    | [], 0 => rfl
    | [], m + 1 => rfl
    | x :: xs, 0 => simp at h'
    | [a], m + 1 => rfl
    | [a, b], m + 1 => rfl
    | [a, b, c], m + 1 => rfl
    | a :: b :: c :: d :: rest, m + 1 =>
      simp only [List.length_cons] at h h'
      simp only [parseFuel]
      rw [ih m (rest.drop d.toNat) (by simp; omega) (by simp; omega)]

theorem parse_cons (op : UInt16) (params rest : List UInt8) (hl : params.length < 256) :
    parseCommands (headerBytes .uart op params.length ++ params ++ rest) =
      (parseCommands rest).map ((op, params) :: ·) := by
  have h : (headerBytes .uart op params.length ++ params ++ rest).length =
      (3 + params.length + rest.length) + 1 := by
    simp [headerBytes]; omega
  unfold parseCommands
  rw [h, parse_packet _ _ _ _ hl, parse_mono _ rest.length rest (by omega) (by omega)]

/-- A controller that transmits everything. -/
def wireController : Controller (List UInt8) Empty where
  write h p := fun s => (.ok (), s ++ (h ++ p))
  readInto _ := fun s => (.err .wouldBlock, s)
  peek _ := fun s => (.err .wouldBlock, s)

theorem wire_atomic : WritesAtomically wireController id :=
  ⟨fun _ _ _ _ => rfl, fun _ _ _ _ h => (by cases h), fun _ _ _ h => by cases h⟩

/-- **C42.** For every sequence of commands and every all-or-nothing controller, the bytes sent parse, packet
by packet, into exactly the commands that returned Ok, in order, with their opcodes and parameters. -/
theorem C42_stream_parses (c : Cfg) (k : Controller σ E) (sent : σ → List UInt8)
    (hk : WritesAtomically k sent) (vinto : VS → UInt8) (cmds : List (Command VS))
    (hc : ∀ cmd ∈ cmds, cmd.Constructible c) (s : σ) :
    let run := runAll (cmds.map (·.exec uartHeader k vinto)) s
    ∃ new, sent run.2 = sent s ++ new ∧
      parseCommands new =
        some (((cmds.zip run.1).filter (fun p => p.2 matches .ok ())).map
          (fun p => (cmdOpcode p.1, cmdParams p.1))) := by
  induction cmds generalizing s with
  | nil => exact ⟨[], by simp [runAll], rfl⟩
  | cons cmd cmds ih =>
    simp only [List.map_cons, runAll]
    have hcc := hc cmd (by simp)
    obtain ⟨new, h1, h2⟩ := ih (fun x hx => hc x (by simp [hx])) (cmd.exec uartHeader k vinto s).2
    cases hr : cmdReject (E := E) cmd with
    | some e =>
      have hx := C40_rejected c .uart k vinto cmd hcc e hr s
      simp only [linkHeader] at hx
      rw [hx] at h1 h2 ⊢
      refine ⟨new, h1, ?_⟩
      rw [h2]
      simp
    | none =>
      obtain ⟨hx, hlen⟩ := C39_one_framed_write c .uart k vinto cmd hcc hr s
      simp only [linkHeader] at hx
      rw [hx] at h1 h2 ⊢
      have hok := hk.ok (headerBytes .uart (cmdOpcode cmd) (cmdParams cmd).length) (cmdParams cmd) s
      have herr := hk.err (headerBytes .uart (cmdOpcode cmd) (cmdParams cmd).length) (cmdParams cmd) s
      have hpan := hk.noPanic (headerBytes .uart (cmdOpcode cmd) (cmdParams cmd).length) (cmdParams cmd) s
      generalize k.write (headerBytes .uart (cmdOpcode cmd) (cmdParams cmd).length) (cmdParams cmd) s = w
        at *
      obtain ⟨r, s'⟩ := w
      cases r with
      | ok u =>
        refine ⟨headerBytes .uart (cmdOpcode cmd) (cmdParams cmd).length ++ cmdParams cmd ++ new, ?_, ?_⟩
        · rw [h1, hok rfl, List.append_assoc]
        · rw [parse_cons _ _ _ hlen, h2]
          simp
      | err e =>
        refine ⟨new, ?_, ?_⟩
        · rw [h1, herr e rfl]
        · rw [h2]
          simp
      | panic => exact absurd rfl hpan

/-- Three commands, of which the second is rejected and sends nothing. -/
example : let cmds := ([.reset, .leTransmitterTest 40 1 .prbS9, .leRand] : List (Command Empty))
    let run := runAll (cmds.map (·.exec uartHeader wireController Empty.elim)) [0xAA]
    run.2 = [0xAA, 1, 0x03, 0x0C, 0, 1, 0x18, 0x20, 0] ∧
    parseCommands [1, 0x03, 0x0C, 0, 1, 0x18, 0x20, 0] = some [(0x0C03, []), (0x2018, [])] :=
  ⟨rfl, by decide +kernel⟩

/-- **C42.** If in addition the writes always succeed, the packets are those of the accepted commands:
rejected ones leave no trace. -/
theorem C42_accepted (c : Cfg) (k : Controller σ E) (sent : σ → List UInt8)
    (hk : WritesAtomically k sent) (hok : ∀ h p s, (k.write h p s).1 = .ok ()) (vinto : VS → UInt8)
    (cmds : List (Command VS)) (hc : ∀ cmd ∈ cmds, cmd.Constructible c) (s : σ) :
    ∃ new, sent (runAll (cmds.map (·.exec uartHeader k vinto)) s).2 = sent s ++ new ∧
      parseCommands new =
        some ((cmds.filter (fun cmd => (cmdReject (E := E) cmd).isNone)).map
          (fun cmd => (cmdOpcode cmd, cmdParams cmd))) := by
  obtain ⟨new, h1, h2⟩ := C42_stream_parses c k sent hk vinto cmds hc s
  refine ⟨new, h1, ?_⟩
  rw [h2]
  congr 1
  clear h1 h2
  induction cmds generalizing s with
  | nil => rfl
  | cons cmd cmds ih =>
    simp only [List.map_cons, runAll, List.zip_cons_cons]
    have hcc := hc cmd (by simp)
    have ih' := ih (fun x hx => hc x (by simp [hx])) (cmd.exec uartHeader k vinto s).2
    cases hr : cmdReject (E := E) cmd with
    | some e =>
      have hx := C40_rejected c .uart k vinto cmd hcc e hr s
      simp only [linkHeader] at hx
      rw [hx] at ih' ⊢
      rw [List.filter_cons_of_neg (by simp), List.filter_cons_of_neg (by simp [hr])]
      exact ih'
    | none =>
      have hx := (C39_one_framed_write c .uart k vinto cmd hcc hr s).1
      simp only [linkHeader] at hx
      rw [hx, hok] at ih' ⊢
      rw [List.filter_cons_of_pos (by simp), List.filter_cons_of_pos (by simp [hr])]
      rw [List.map_cons, List.map_cons, ih']

example : WritesAtomically wireController id ∧ ∀ h p s, (wireController.write h p s).1 = .ok () :=
  ⟨wire_atomic, fun _ _ _ => rfl⟩

theorem packets_unique (ps qs : List (UInt16 × List UInt8))
    (hp : ∀ p ∈ ps, p.2.length < 256) (hq : ∀ q ∈ qs, q.2.length < 256)
    (h : ps.flatMap (fun p => headerBytes .uart p.1 p.2.length ++ p.2) =
      qs.flatMap (fun p => headerBytes .uart p.1 p.2.length ++ p.2)) : ps = qs := by
  have key : ∀ ps : List (UInt16 × List UInt8), (∀ p ∈ ps, p.2.length < 256) →
      parseCommands (ps.flatMap (fun p => headerBytes .uart p.1 p.2.length ++ p.2)) = some ps := by
    intro ps
    induction ps with
    | nil => intro _; rfl
    | cons p ps ih =>
      intro hp
      rw [List.flatMap_cons, parse_cons _ _ _ (hp p (by simp)), ih (fun x hx => hp x (by simp [hx]))]
      rfl
  have h1 := key ps hp
  rw [h, key qs hq] at h1
  exact (Option.some.inj h1).symm

theorem stream_packets (c : Cfg) (k : Controller σ E) (sent : σ → List UInt8)
    (hk : WritesAtomically k sent) (vinto : VS → UInt8) (cmds : List (Command VS))
    (hc : ∀ cmd ∈ cmds, cmd.Constructible c) (s : σ) :
    let run := runAll (cmds.map (·.exec uartHeader k vinto)) s
    let packets := ((cmds.zip run.1).filter (fun p => p.2 matches .ok ())).map
      (fun p => (cmdOpcode p.1, cmdParams p.1))
    sent run.2 = sent s ++ packets.flatMap (fun p => headerBytes .uart p.1 p.2.length ++ p.2) ∧
      ∀ p ∈ packets, p.2.length < 256 := by
  induction cmds generalizing s with
  | nil => exact ⟨by simp [runAll], by simp⟩
  | cons cmd cmds ih =>
    simp only [List.map_cons, runAll]
    have hcc := hc cmd (by simp)
    obtain ⟨h1, h2⟩ := ih (fun x hx => hc x (by simp [hx])) (cmd.exec uartHeader k vinto s).2
    cases hr : cmdReject (E := E) cmd with
    | some e =>
      have hx := C40_rejected c .uart k vinto cmd hcc e hr s
      simp only [linkHeader] at hx
      rw [hx] at h1 h2 ⊢
      rw [List.zip_cons_cons, List.filter_cons_of_neg (by simp)]
      exact ⟨h1, h2⟩
    | none =>
      obtain ⟨hx, hlen⟩ := C39_one_framed_write c .uart k vinto cmd hcc hr s
      simp only [linkHeader] at hx
      rw [hx] at h1 h2 ⊢
      have hok := hk.ok (headerBytes .uart (cmdOpcode cmd) (cmdParams cmd).length) (cmdParams cmd) s
      have herr := hk.err (headerBytes .uart (cmdOpcode cmd) (cmdParams cmd).length) (cmdParams cmd) s
      have hpan := hk.noPanic (headerBytes .uart (cmdOpcode cmd) (cmdParams cmd).length) (cmdParams cmd) s
      generalize k.write (headerBytes .uart (cmdOpcode cmd) (cmdParams cmd).length) (cmdParams cmd) s = w
        at *
      obtain ⟨r, s'⟩ := w
      cases r with
      | ok u =>
        rw [List.zip_cons_cons, List.filter_cons_of_pos (by simp)]
        refine ⟨?_, ?_⟩
        · rw [h1, hok rfl, List.map_cons, List.flatMap_cons, List.append_assoc]
        · simp only [List.map_cons, List.mem_cons, forall_eq_or_imp]
          exact ⟨hlen, h2⟩
      | err e =>
        rw [List.zip_cons_cons, List.filter_cons_of_neg (by simp)]
        exact ⟨by rw [h1, herr e rfl], h2⟩
      | panic => exact absurd rfl hpan

/-- **C42.** The bytes sent can be read in no other way: any packets whose encodings make up the stream are
those of the commands that returned Ok. -/
theorem C42_unique (c : Cfg) (k : Controller σ E) (sent : σ → List UInt8)
    (hk : WritesAtomically k sent) (vinto : VS → UInt8) (cmds : List (Command VS))
    (hc : ∀ cmd ∈ cmds, cmd.Constructible c) (s : σ) (packets : List (UInt16 × List UInt8))
    (hl : ∀ p ∈ packets, p.2.length < 256) :
    let run := runAll (cmds.map (·.exec uartHeader k vinto)) s
    sent run.2 = sent s ++ packets.flatMap (fun p => headerBytes .uart p.1 p.2.length ++ p.2) ↔
      packets = ((cmds.zip run.1).filter (fun p => p.2 matches .ok ())).map
        (fun p => (cmdOpcode p.1, cmdParams p.1)) := by
  intro run
  obtain ⟨h1, h2⟩ := stream_packets c k sent hk vinto cmds hc s
  constructor
  · intro h
    rw [h1] at h
    exact (packets_unique _ _ h2 hl (List.append_cancel_left h)).symm
  · rintro rfl
    exact h1

example : parseCommands [1, 3, 12, 0, 1, 6, 4, 3, 1, 2, 5] = some [(0x0C03, []), (0x0406, [1, 2, 5])] := by
  decide +kernel

/-! ## C43: retrying -/

/-- A controller that would block as often as its counter says. -/
def blockingController : Controller (Nat × List UInt8) Empty where
  write h p := fun s => match s with
    | (0, out) => (.ok (), (0, out ++ (h ++ p)))
    | (n + 1, out) => (.err .wouldBlock, (n, out))
  readInto _ := fun s => (.err .wouldBlock, s)
  peek _ := fun s => (.err .wouldBlock, s)

example : WritesAtomically blockingController Prod.snd := by
  refine ⟨fun h p s hs => ?_, fun h p s e hs => ?_, fun h p s hs => ?_⟩ <;> obtain ⟨n, out⟩ := s <;>
    cases n <;> first | rfl | cases hs

/-- **C43.** However often the write would block first, a command repeated until it no longer would block is
transmitted exactly once if it finally returns Ok, and not at all if it finally fails. -/
theorem C43_retry_once (c : Cfg) (l : Link) (k : Controller σ E) (sent : σ → List UInt8)
    (hk : WritesAtomically k sent) (vinto : VS → UInt8) (cmd : Command VS) (hc : cmd.Constructible c)
    (s s' : σ) (r : Res (Nb (HostError E VS)) Unit)
    (h : Retry (cmd.exec (linkHeader l) k vinto) s r s') :
    (r = .ok () → sent s' = sent s ++
      (headerBytes l (cmdOpcode cmd) (cmdParams cmd).length ++ cmdParams cmd)) ∧
    (∀ e, r = .err e → sent s' = sent s) ∧ r ≠ .panic ∧ r ≠ .err .wouldBlock := by
  have key : ∀ s, (∀ e s₁, cmd.exec (linkHeader l) k vinto s = (.err e, s₁) → sent s₁ = sent s) ∧
      (∀ s₁, cmd.exec (linkHeader l) k vinto s = (.ok (), s₁) → sent s₁ = sent s ++
        (headerBytes l (cmdOpcode cmd) (cmdParams cmd).length ++ cmdParams cmd)) ∧
      (cmd.exec (linkHeader l) k vinto s).1 ≠ .panic := by
    intro s
    cases hr : cmdReject (E := E) cmd with
    | some e =>
      rw [C40_rejected c l k vinto cmd hc e hr s]
      exact ⟨fun e s₁ h => (by cases h; rfl), fun s₁ h => (by cases h), by simp⟩
    | none =>
      rw [(C39_one_framed_write c l k vinto cmd hc hr s).1]
      have hok := hk.ok (headerBytes l (cmdOpcode cmd) (cmdParams cmd).length) (cmdParams cmd) s
      have herr := hk.err (headerBytes l (cmdOpcode cmd) (cmdParams cmd).length) (cmdParams cmd) s
      have hpan := hk.noPanic (headerBytes l (cmdOpcode cmd) (cmdParams cmd).length) (cmdParams cmd) s
      generalize k.write (headerBytes l (cmdOpcode cmd) (cmdParams cmd).length) (cmdParams cmd) s = w
        at *
      obtain ⟨r, s'⟩ := w
      cases r with
      | ok u => exact ⟨fun e s₁ h => (by cases h), fun s₁ h => (by cases h; exact hok rfl), by simp⟩
      | err e => exact ⟨fun e' s₁ h => (by cases h; exact herr e rfl), fun s₁ h => (by cases h), by simp⟩
      | panic => exact absurd rfl hpan
  induction h with
  | done s r s' h1 h2 =>
    obtain ⟨k1, k2, k3⟩ := key s
    rw [h1] at k1 k2 k3
    exact ⟨fun hr => k2 s' (by rw [hr]), fun e he => k1 e s' (by rw [he]), k3, h2⟩
  | again s s₁ r s' h1 _ ih =>
    rw [← (key s).1 _ _ h1]
    exact ih

/-- Three attempts block, the fourth one sends the command once. -/
example : Retry (Command.exec (VS := Empty) uartHeader blockingController Empty.elim .reset) (3, []) (.ok ())
    (0, [0x01, 0x03, 0x0C, 0]) :=
  .again _ (2, []) _ _ rfl (.again _ (1, []) _ _ rfl (.again _ (0, []) _ _ rfl (.done _ _ _ rfl (by simp))))

/-- **C43.** And it does come to an end as soon as the controller stops blocking: if the writes block `n`
times and then succeed, the retries end with Ok. -/
theorem C43_retry_ends (c : Cfg) (l : Link) (k : Controller σ E) (vinto : VS → UInt8) (cmd : Command VS)
    (hc : cmd.Constructible c) (ha : cmdReject (E := E) cmd = none) (n : Nat) (st : Nat → σ)
    (hblock : ∀ i < n, k.write (headerBytes l (cmdOpcode cmd) (cmdParams cmd).length) (cmdParams cmd) (st i) =
      (.err .wouldBlock, st (i + 1)))
    (hdone : k.write (headerBytes l (cmdOpcode cmd) (cmdParams cmd).length) (cmdParams cmd) (st n) =
      (.ok (), st (n + 1))) :
    Retry (cmd.exec (linkHeader l) k vinto) (st 0) (.ok ()) (st (n + 1)) := by
  have key : ∀ m, m ≤ n → Retry (cmd.exec (linkHeader l) k vinto) (st (n - m)) (.ok ()) (st (n + 1)) := by
    intro m
    induction m with
    | zero =>
      intro _
      refine .done _ _ _ ?_ (by simp)
      rw [(C39_one_framed_write c l k vinto cmd hc ha _).1, Nat.sub_zero, hdone]
      rfl
    | succ m ih =>
      intro hm
      refine .again _ (st (n - m)) _ _ ?_ (ih (by omega))
      rw [(C39_one_framed_write c l k vinto cmd hc ha _).1, hblock (n - (m + 1)) (by omega)]
      rw [show n - (m + 1) + 1 = n - m by omega]
      rfl
  have := key n (Nat.le_refl n)
  rwa [Nat.sub_self] at this

/-- The states of a controller that blocks twice. -/
example : (∀ i < 2, blockingController.write [0x01, 0x03, 0x0C, 0] [] (2 - i, []) =
      (.err .wouldBlock, (2 - (i + 1), []))) ∧
    blockingController.write [0x01, 0x03, 0x0C, 0] [] (2 - 2, []) = (.ok (), (0, [0x01, 0x03, 0x0C, 0])) := by
  decide

/-! ## C48: headers identify commands -/

/-- **C48, false as stated.** Not every header type identifies the command: over `event_link::NoCommands` all
commands have the same header. -/
theorem C48_header_fails :
    ¬ ∀ H : HciHeader, ∀ a b : Command Empty,
      (a.exec H logController Empty.elim []).2.map Prod.fst = (b.exec H logController Empty.elim []).2.map Prod.fst →
      cmdReject (E := Empty) a = none → cmdReject (E := Empty) b = none → cmdOpcode a = cmdOpcode b := by
  intro h
  have := h noCommandsHeader .reset .leRand rfl rfl rfl
  revert this
  decide

/-- **C48.** What `NoCommands` does: every accepted command is written with a header of three zero bytes. -/
theorem C48_no_commands (c : Cfg) (k : Controller σ E) (vinto : VS → UInt8) (cmd : Command VS)
    (hc : cmd.Constructible c) (ha : cmdReject (E := E) cmd = none) (s : σ) (log : List CtlOp) :
    (cmd.exec noCommandsHeader (recording k) vinto (s, log)).2.2 =
      log ++ [.write [0, 0, 0] (cmdParams cmd)] := by
  rw [exec_eq_gen c _ (recording k) (fun _ _ => [0, 0, 0]) (writeCommand_noCommands (recording k)) vinto cmd hc,
    ha]
  rfl

example : (Command.exec (VS := Empty) noCommandsHeader (recording logController) Empty.elim
    (.disconnect ⟨0x0201⟩ .authFailure) ([], [])).2.2 = [.write [0, 0, 0] [0x01, 0x02, 0x05]] := rfl

theorem headerBytes_inj (l : Link) (op op' : UInt16) (n n' : Nat)
    (h : headerBytes l op n = headerBytes l op' n') : op = op' ∧ UInt8.ofNat n = UInt8.ofNat n' := by
  have key : le16 op = le16 op' ∧ [UInt8.ofNat n] = [UInt8.ofNat n'] := by
    cases l with
    | uart =>
      simp only [headerBytes, List.cons_append, List.nil_append, List.cons.injEq, true_and] at h
      exact List.append_inj h (by simp)
    | cmdLink =>
      simp only [headerBytes, List.nil_append] at h
      exact List.append_inj h (by simp)
  exact ⟨le16_inj key.1, List.head_eq_of_cons_eq key.2⟩

/-- A command that writes at all writes the header of its opcode. -/
theorem wrote (c : Cfg) (l : Link) (k : Controller σ E) (vinto : VS → UInt8) (cmd : Command VS)
    (hc : cmd.Constructible c) (s : σ) (h p : List UInt8)
    (hw : (cmd.exec (linkHeader l) (recording k) vinto (s, [])).2.2 = [.write h p]) :
    cmdReject (E := E) cmd = none ∧ h = headerBytes l (cmdOpcode cmd) (cmdParams cmd).length ∧
      p = cmdParams cmd := by
  cases hr : cmdReject (E := E) cmd with
  | some e =>
    rw [C40_rejected c l (recording k) vinto cmd hc e hr] at hw
    cases hw
  | none =>
    rw [C39_trace c l k vinto cmd hc hr] at hw
    simp only [List.nil_append, List.cons.injEq, CtlOp.write.injEq, and_true] at hw
    exact ⟨rfl, hw.1.symm, hw.2.symm⟩

/-- **C48, the part that holds.** On the two links meant for commands the header that is written determines
the opcode of the command and the length of its parameters.
Missing: `event_link::NoCommands` (`C48_header_fails`, `C48_no_commands`). -/
theorem C48_header_partial {VS' σ' E' : Type} (c : Cfg) (l : Link) (k : Controller σ E) (k' : Controller σ' E')
    (vinto : VS → UInt8) (vinto' : VS' → UInt8) (a : Command VS) (b : Command VS')
    (ca : a.Constructible c) (cb : b.Constructible c) (s : σ) (t : σ') (h p q : List UInt8)
    (ha : (a.exec (linkHeader l) (recording k) vinto (s, [])).2.2 = [.write h p])
    (hb : (b.exec (linkHeader l) (recording k') vinto' (t, [])).2.2 = [.write h q]) :
    cmdOpcode a = cmdOpcode b ∧ p.length = q.length := by
  obtain ⟨ra, rfl, rfl⟩ := wrote c l k vinto a ca s h p ha
  obtain ⟨rb, hh, rfl⟩ := wrote c l k' vinto' b cb t _ q hb
  obtain ⟨h1, h2⟩ := headerBytes_inj l _ _ _ _ hh
  refine ⟨h1, ?_⟩
  have la := cmdParams_length a ra
  have lb := cmdParams_length b rb
  have := congrArg UInt8.toNat h2
  rw [UInt8.toNat_ofNat', UInt8.toNat_ofNat'] at this
  omega

/-- Two commands with the same header. -/
example : (Command.exec (VS := Empty) (linkHeader .uart) (recording logController) Empty.elim
      (.leReceiverTest 7) ([], [])).2.2 = [.write [0x01, 0x1D, 0x20, 1] [7]] ∧
    (Command.exec (VS := Empty) (linkHeader .uart) (recording logController) Empty.elim
      (.leReceiverTest 8) ([], [])).2.2 = [.write [0x01, 0x1D, 0x20, 1] [8]] := ⟨rfl, rfl⟩

end Bt
