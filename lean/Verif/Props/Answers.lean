import Verif.Props.Sessions
import Verif.Props.Returns
import Verif.Spec.Answers

/-! # C70, C71: commands and the events that answer them -/

namespace Bt

open Spec

theorem table_injective : ∀ x ∈ opcodeTable, ∀ y ∈ opcodeTable, x.2 = y.2 → x.1 = y.1 := by decide +kernel

section
variable (c : Cfg) (V : Vendor)

/-- **C70.** Whatever the API wrote as opcode of a command, a Command Status with those opcode bytes is
accepted exactly when its status is known, and carries the opcode of that command, which no other command
has. -/
theorem C70_status {σ E VS : Type} (l : Link) (k : Controller σ E) (vinto : VS → UInt8)
    (cmd : Command VS) (hc : cmd.Constructible c) (s : σ) (header payload : List UInt8)
    (hw : (cmd.exec (linkHeader l) (recording k) vinto (s, [])).2.2 = [.write header payload])
    (st n : UInt8) (e : V.Ev) :
    (Event.new c V (frame 0x0F (st :: n :: writtenOpcode l header)) = .ok e ↔
      ∃ x, StatusByte c V st x ∧ e = .commandStatus ⟨x, n, ⟨cmdOpcode cmd⟩⟩) ∧
    ∀ cmd' : Command VS, cmdOpcode cmd' = cmdOpcode cmd ↔ commandSent cmd' = commandSent cmd := by
  obtain ⟨-, rfl, -⟩ := wrote c l k vinto cmd hc s header payload hw
  have hop : writtenOpcode l (headerBytes l (cmdOpcode cmd) (cmdParams cmd).length) = le16 (cmdOpcode cmd) := by
    cases l <;> rfl
  rw [hop, C09_sound_and_complete]
  refine ⟨⟨?_, ?_⟩, fun cmd' => ⟨fun h => ?_, fun h => ?_⟩⟩
  · rintro ⟨code, ps, hf, -, hs⟩
    obtain ⟨rfl, rfl⟩ := frame_inj hf
    generalize hp : st :: n :: le16 (cmdOpcode cmd) = ps at hs
    cases hs with
    | commandStatus h1 =>
      simp only [List.cons.injEq] at hp
      obtain ⟨rfl, rfl, ho⟩ := hp
      rw [le16_inj ho]
      exact ⟨_, h1, rfl⟩
  · rintro ⟨x, hx, rfl⟩
    exact ⟨_, _, rfl, by simp [le16], .commandStatus hx⟩
  · exact table_functional _ (sent_mem cmd') _ (sent_mem cmd) h
  · exact table_injective _ (sent_mem cmd') _ (sent_mem cmd) h

/-- Reset, answered by a Command Status that rejects it. -/
example : (Command.exec (VS := Empty) (linkHeader .uart) (recording logController) Empty.elim .reset
    ([], [])).2.2 = [.write [0x01, 0x03, 0x0C, 0] []] ∧
    writtenOpcode .uart [0x01, 0x03, 0x0C, 0] = [0x03, 0x0C] ∧
    Event.new ⟨false, false⟩ demoVendor (frame 0x0F [0x0C, 1, 0x03, 0x0C]) =
      .ok (.commandStatus ⟨.commandDisallowed, 1, ⟨cmdOpcode (.reset : Command Empty)⟩⟩) :=
  ⟨rfl, rfl, rfl⟩

/-- An answer to the opcode of a command is decoded as an answer to that command. -/
theorem answer_decoded {VS : Type} {cmd : Command VS} {a : List UInt8} {e : V.Ev}
    (ha : Answer (cmdOpcode cmd) a) (h : Event.new c V a = .ok e) : TellsAnswer cmd e := by
  cases ha with
  | @complete n ps hl =>
    obtain ⟨hv, h0⟩ := table_standard _ (sent_mem cmd)
    rcases C21_by_opcode c V n (cmdOpcode cmd) ps e h with ⟨h, -⟩ | ⟨r, rfl, hr⟩ | ⟨h, -⟩
    · exact absurd h h0
    · obtain ⟨x, hx, hm⟩ := answered_mem r _ hr
      exact .inl ⟨n, r, rfl, by rw [hx]; exact congrArg some (table_functional _ hm _ (sent_mem cmd) rfl)⟩
    · exact absurd h hv
  | @status st n =>
    obtain ⟨code, ps, hf, -, hs⟩ := (C09_sound_and_complete c V _ _).mp h
    obtain ⟨rfl, rfl⟩ := frame_inj hf
    generalize hp : st :: n :: le16 (cmdOpcode cmd) = ps at hs
    cases hs with
    | commandStatus h1 =>
      simp only [List.cons.injEq] at hp
      obtain ⟨rfl, rfl, ho⟩ := hp
      rw [← le16_inj ho]
      exact .inr ⟨_, _, rfl⟩

theorem accepted_succeeded {VS E ρ : Type} (as : List (Act VS E ρ)) :
    Act.accepted as = (Act.succeeded as).map fun cmd => (cmdOpcode cmd, cmdParams cmd) := by
  rw [Act.accepted, Act.succeeded, List.map_filterMap]
  congr 1
  funext a
  rcases a with r | ⟨cmd, ⟨⟩ | _ | _⟩ <;> rfl

/-- Packets on a command link can be told apart. -/
theorem link_packets_inj : ∀ ps qs : List (UInt16 × List UInt8), (∀ p ∈ ps, p.2.length < 256) →
    (∀ q ∈ qs, q.2.length < 256) →
    (ps.map fun p => le16 p.1 ++ UInt8.ofNat p.2.length :: p.2).flatten =
      (qs.map fun p => le16 p.1 ++ UInt8.ofNat p.2.length :: p.2).flatten → ps = qs
  | [], [], _, _, _ => rfl
  | [], q :: qs, _, _, h => by simp at h
  | p :: ps, [], _, _, h => by simp at h
  | p :: ps, q :: qs, hp, hq, h => by
    simp only [List.map_cons, List.flatten_cons, List.append_assoc, List.cons_append] at h
    obtain ⟨h1, h2⟩ := List.append_inj h (by simp [le16])
    obtain ⟨h3, h4⟩ := List.cons.inj h2
    have hlen : p.2.length = q.2.length := by
      have := congrArg UInt8.toNat h3
      rw [UInt8.toNat_ofNat', UInt8.toNat_ofNat'] at this
      have := hp p (.head _)
      have := hq q (.head _)
      omega
    obtain ⟨h5, h6⟩ := List.append_inj h4 hlen
    rw [link_packets_inj ps qs (fun p h => hp p (.tail _ h)) (fun q h => hq q (.tail _ h)) h6,
      Prod.ext (le16_inj h1) h5]

/-- Of two sequences of which one begins with the other, the same places hold the same. -/
theorem comparable_at {α : Type} {xs ys : List α} (h : xs <+: ys ∨ ys <+: xs) {j : Nat} {x y : α}
    (hx : xs[j]? = some x) (hy : ys[j]? = some y) : x = y := by
  rcases h with h | h <;> obtain ⟨t, rfl⟩ := h
  · rw [List.getElem?_append_left (List.getElem?_eq_some_iff.mp hx).1, hx] at hy
    exact Option.some.inj hy
  · rw [List.getElem?_append_left (List.getElem?_eq_some_iff.mp hy).1, hy] at hx
    exact (Option.some.inj hx).symm

end

section
variable {σ E : Type} {c : Cfg} {V : Vendor} {k : Controller σ E}
  {stream : σ → List UInt8} {taken : σ → Nat} {sent : σ → List UInt8}

/-- **C71.** In any session over a UART, however reads and commands are interleaved and whichever of them
fail: if the `j`-th packet received answers the `i`-th command on the wire, then the `j`-th event read, if it
is not an error, tells the host that the `i`-th of its commands that returned Ok was answered. -/
theorem C71_uart (hk : Duplex k stream taken sent) {s s' : σ}
    {as : List (Act V.VStatus E (Res (Nb (UartError E V.VErr)) (UartPacket V)))}
    (vinto : V.VStatus → UInt8)
    (h : Session stream taken sent (Uart.read c V k) (·.exec uartHeader k vinto) (·.Constructible c) s as s')
    {new tail : List UInt8} {commands : List (UInt16 × List UInt8)} {received : List (List UInt8)}
    (hs : sent s' = sent s ++ new) (hc : parseCommands new = some commands)
    (hf : ∀ p ∈ received, Framed p) (hr : (stream s').drop (taken s) = uartBytes received ++ tail)
    {i j : Nat} {o : UInt16} {args answer : List UInt8} {e : V.Ev}
    (hi : commands[i]? = some (o, args)) (hj : received[j]? = some answer) (ha : Answer o answer)
    (he : ((Act.reads as).filterMap uartOutcome)[j]? = some (.ok e)) :
    ∃ cmd, (Act.succeeded as)[i]? = some cmd ∧ TellsAnswer cmd e := by
  obtain ⟨⟨packets, hp, ho, -, hb⟩, new', hs', hc'⟩ := C64_uart hk vinto h
  obtain rfl := List.append_cancel_left (hs.symm.trans hs')
  obtain rfl := Option.some.inj (hc.symm.trans hc')
  rw [accepted_succeeded, List.getElem?_map] at hi
  rw [ho, List.getElem?_map] at he
  obtain ⟨cmd, h1, h2⟩ := Option.map_eq_some_iff.mp hi
  obtain ⟨p, h3, h4⟩ := Option.map_eq_some_iff.mp he
  obtain ⟨rfl, -⟩ := Prod.mk.inj h2
  have hcmp := wire_comparable prefixFree_uart packets received _ _ hp hf (hb.symm.trans hr)
  obtain rfl := comparable_at hcmp h3 hj
  exact ⟨cmd, h1, answer_decoded c V ha h4⟩

/-- Two commands; the second is answered first, after an unrelated event. -/
example : ∃ s', Session (·.queue.1) (·.queue.2) (·.sent) (Uart.read ⟨false, false⟩ demoVendor modem)
    (·.exec uartHeader modem id) (·.Constructible ⟨false, false⟩)
    ⟨(uartBytes [[0x10, 0x01, 0x2A], [0x0F, 4, 0, 1, 0x18, 0x20], [0x0E, 4, 1, 0x03, 0x0C, 0]], 0), []⟩
    [.command (VS := UInt8) .reset (.ok ()), .command .leRand (.ok ()),
      .read (.ok (.event (.hardwareError ⟨0x2A⟩))),
      .read (.ok (.event (.commandStatus ⟨.success, 1, ⟨0x2018⟩⟩))),
      .read (.ok (.event (.commandComplete ⟨1, .reset .success⟩)))] s' ∧
    s'.sent = [1, 0x03, 0x0C, 0, 1, 0x18, 0x20, 0] ∧
    parseCommands [1, 0x03, 0x0C, 0, 1, 0x18, 0x20, 0] = some [(0x0C03, []), (0x2018, [])] ∧
    Answer 0x2018 [0x0F, 4, 0, 1, 0x18, 0x20] ∧ Answer 0x0C03 [0x0E, 4, 1, 0x03, 0x0C, 0] :=
  ⟨_, .command trivial rfl (.command trivial rfl (.read (by rw [uartRead_eq]; rfl)
    (.read (by rw [uartRead_eq]; rfl) (.read (by rw [uartRead_eq]; rfl) (.nil _))))), rfl,
    parse_all [(0x0C03, []), (0x2018, [])] (by simp),
    .status (o := 0x2018) (st := 0) (n := 1), .complete (o := 0x0C03) (n := 1) (ps := [0]) (by decide)⟩

/-- **C71** for a device whose events and commands use two links: any controller for each. -/
theorem C71_two_links {σ₁ σ₂ : Type} {events : Controller σ₁ E} {commands : Controller σ₂ E}
    {stream : σ₁ → List UInt8} {taken : σ₁ → Nat} {sent : σ₂ → List UInt8}
    (hd : Delivers events stream taken) (hw : WritesAtomically commands sent) {s s' : σ₁ × σ₂}
    {as : List (Act V.VStatus E (Res (Nb (EventLinkError E V.VErr)) V.Ev))}
    (vinto : V.VStatus → UInt8)
    (h : Session (fun s => stream s.1) (fun s => taken s.1) (fun s => sent s.2)
      (EventLink.read c V (twoLinks events commands))
      (·.exec cmdLinkHeader (twoLinks events commands) vinto) (·.Constructible c) s as s')
    {tail : List UInt8} {packets : List (UInt16 × List UInt8)} {received : List (List UInt8)}
    (hl : ∀ p ∈ packets, p.2.length < 256)
    (hs : sent s'.2 = sent s.2 ++ (packets.map fun p => le16 p.1 ++ UInt8.ofNat p.2.length :: p.2).flatten)
    (hf : ∀ p ∈ received, Framed p) (hr : (stream s'.1).drop (taken s.1) = received.flatten ++ tail)
    {i j : Nat} {o : UInt16} {args answer : List UInt8} {e : V.Ev}
    (hi : packets[i]? = some (o, args)) (hj : received[j]? = some answer) (ha : Answer o answer)
    (he : ((Act.reads as).filterMap linkOutcome)[j]? = some (.ok e)) :
    ∃ cmd, (Act.succeeded as)[i]? = some cmd ∧ TellsAnswer cmd e := by
  obtain ⟨⟨packets', hp, ho, -, hb⟩, hs'⟩ := C64_two_links hd hw vinto h
  have hl' := (session_sent (twoLinks_duplex hd hw) .cmdLink (link_sends_nothing (twoLinks_duplex hd hw)) h).2
  obtain rfl := link_packets_inj _ _ hl hl' (List.append_cancel_left (hs.symm.trans hs'))
  rw [accepted_succeeded, List.getElem?_map] at hi
  rw [ho, List.getElem?_map] at he
  obtain ⟨cmd, h1, h2⟩ := Option.map_eq_some_iff.mp hi
  obtain ⟨p, h3, h4⟩ := Option.map_eq_some_iff.mp he
  obtain ⟨rfl, -⟩ := Prod.mk.inj h2
  have hcmp := wire_comparable prefixFree_id packets' received _ _ hp hf
    (by rw [wire_id, wire_id]; exact hb.symm.trans hr)
  obtain rfl := comparable_at hcmp h3 hj
  exact ⟨cmd, h1, answer_decoded c V ha h4⟩

/-- Two commands over one link; over the other, the second is answered first. -/
example : ∃ s', Session (fun s => s.1.1) (fun s => s.1.2) (fun s => s.2.sent)
    (EventLink.read ⟨false, false⟩ demoVendor (twoLinks fifo modem))
    (·.exec cmdLinkHeader (twoLinks fifo modem) id) (·.Constructible ⟨false, false⟩)
    (([0x0F, 4, 0, 1, 0x18, 0x20, 0x0E, 4, 1, 0x03, 0x0C, 0], 0), ⟨([], 0), []⟩)
    [.command (VS := UInt8) .reset (.ok ()), .command .leRand (.ok ()),
      .read (.ok (.commandStatus ⟨.success, 1, ⟨0x2018⟩⟩)),
      .read (.ok (.commandComplete ⟨1, .reset .success⟩))] s' ∧
      s'.2.sent = [0x03, 0x0C, 0, 0x18, 0x20, 0] :=
  ⟨_, .command trivial rfl (.command trivial rfl (.read (by rw [linkRead_eq]; rfl)
    (.read (by rw [linkRead_eq]; rfl) (.nil _)))), rfl⟩

end

end Bt
