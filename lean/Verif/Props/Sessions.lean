import Verif.Lemmas.Sessions
import Verif.Props.Streams
import Verif.Props.EventLink

/-! # C64: sending and receiving do not disturb each other; C65: reading recovers from failures -/

namespace Bt

open Spec

variable {σ E : Type} {c : Cfg} {V : Vendor} {k : Controller σ E}
  {stream : σ → List UInt8} {taken : σ → Nat} {sent : σ → List UInt8} {patience : σ → Nat}

/-- **C64.** In any session over a UART the events read are the decodings of the packets received, in order,
each one once, and the bytes sent parse into exactly the commands that returned Ok, in order, however reads
and commands are interleaved and whichever of them fail. -/
theorem C64_uart (hk : Duplex k stream taken sent) {s s' : σ}
    {as : List (Act V.VStatus E (Res (Nb (UartError E V.VErr)) (UartPacket V)))}
    (vinto : V.VStatus → UInt8)
    (h : Session stream taken sent (Uart.read c V k) (·.exec uartHeader k vinto) (·.Constructible c) s as s') :
    (∃ packets : List (List UInt8), (∀ p ∈ packets, Framed p) ∧
      (Act.reads as).filterMap uartOutcome = packets.map (Event.new c V) ∧
      taken s' = taken s + (uartBytes packets).length ∧
      (stream s').drop (taken s) = uartBytes packets ++ pending stream taken s') ∧
    ∃ new, sent s' = sent s ++ new ∧ parseCommands new = some (Act.accepted as) := by
  constructor
  · exact (C03_history hk.delivers (session_history hk .uart h)).1
  · obtain ⟨h1, h2⟩ := session_sent hk .uart (uart_sends_nothing hk) h
    exact ⟨_, h1, parse_all _ h2⟩

/-- A session of the modem: a command, the event that answers it, a rejected command, another command. -/
example : ∃ s', Session (·.queue.1) (·.queue.2) (·.sent) (Uart.read ⟨false, false⟩ demoVendor modem)
    (·.exec uartHeader modem id) (·.Constructible ⟨false, false⟩)
    ⟨([0x04, 0x10, 0x01, 0x2A], 0), []⟩
    [.command (VS := UInt8) .reset (.ok ()), .read (.ok (.event (.hardwareError ⟨0x2A⟩))),
      .command (.leTransmitterTest 40 1 .prbS9) (.err (.other (.invalidTestChannel 40))),
      .command .leRand (.ok ())] s' ∧ s'.sent = [1, 0x03, 0x0C, 0, 1, 0x18, 0x20, 0] :=
  ⟨_, .command trivial rfl (.read (by rw [uartRead_eq]; rfl) (.command trivial rfl
    (.command trivial rfl (.nil _)))), rfl⟩

/-- **C64** for a device whose events and commands use two links: any controller for each. -/
theorem C64_two_links {σ₁ σ₂ : Type} {events : Controller σ₁ E} {commands : Controller σ₂ E}
    {stream : σ₁ → List UInt8} {taken : σ₁ → Nat} {sent : σ₂ → List UInt8}
    (hd : Delivers events stream taken) (hw : WritesAtomically commands sent) {s s' : σ₁ × σ₂}
    {as : List (Act V.VStatus E (Res (Nb (EventLinkError E V.VErr)) V.Ev))}
    (vinto : V.VStatus → UInt8)
    (h : Session (fun s => stream s.1) (fun s => taken s.1) (fun s => sent s.2)
      (EventLink.read c V (twoLinks events commands))
      (·.exec cmdLinkHeader (twoLinks events commands) vinto) (·.Constructible c) s as s') :
    (∃ packets : List (List UInt8), (∀ p ∈ packets, Framed p) ∧
      (Act.reads as).filterMap linkOutcome = packets.map (Event.new c V) ∧
      taken s'.1 = taken s.1 + packets.flatten.length ∧
      (stream s'.1).drop (taken s.1) = packets.flatten ++ pending stream taken s'.1) ∧
    sent s'.2 = sent s.2 ++
      ((Act.accepted as).map fun p => le16 p.1 ++ UInt8.ofNat p.2.length :: p.2).flatten := by
  have hk := twoLinks_duplex hd hw
  constructor
  · obtain ⟨-, ps, h1, h2, h3, h4⟩ := history (link_steps hk.delivers) (session_history hk .cmdLink h)
    rw [wire_id] at h3 h4
    exact ⟨ps, h1, h2, h3, h4⟩
  · rw [(session_sent hk .cmdLink (link_sends_nothing hk) h).1]
    congr 3

/-- A session over two links: an event arrives over one, a command leaves over the other. -/
example : ∃ s', Session (fun s => s.1.1) (fun s => s.1.2) (fun s => s.2.sent)
    (EventLink.read ⟨false, false⟩ demoVendor (twoLinks fifo modem))
    (·.exec cmdLinkHeader (twoLinks fifo modem) id) (·.Constructible ⟨false, false⟩)
    (([0x10, 0x01, 0x2A], 0), ⟨([], 0), []⟩)
    [.command (VS := UInt8) .reset (.ok ()), .read (.ok (.hardwareError ⟨0x2A⟩))] s' ∧
      s'.2.sent = [0x03, 0x0C, 0] :=
  ⟨_, .command trivial rfl (.read (by rw [linkRead_eq]; rfl) (.nil _)), rfl⟩

/-- **C65.** If a UART controller fails only a bounded number of times when bytes are available, calling
`read` again and again delivers all the packets that have arrived, in order: as many calls as there are
packets, and one more for each failure, are enough. -/
theorem C65_recovers (hd : Delivers k stream taken) (hp : Patient k stream taken patience) (s : σ)
    (packets : List (List UInt8)) (tail : List UInt8) (hf : ∀ p ∈ packets, Framed p)
    (hs : pending stream taken s = uartBytes packets ++ tail) (n : Nat)
    (hn : packets.length + patience s ≤ n) :
    packets.map (Event.new c V) <+:
      (callTimes (Uart.read c V k) n s).1.filterMap uartOutcome :=
  recover prefixFree_uart (uart_steps hd) (fun h1 h2 h3 => uart_patient hd hp h1 h2 h3) n s packets tail hf hs hn

/-- Two packets and two failures: four calls are enough. -/
example : [Event.new ⟨false, false⟩ demoVendor [0x10, 0x01, 0x2A],
      Event.new ⟨false, false⟩ demoVendor [0x1A, 0x01, 0x01]] <+:
    (callTimes (Uart.read ⟨false, false⟩ demoVendor flaky) 4
      ((uartBytes [[0x10, 0x01, 0x2A], [0x1A, 0x01, 0x01]], 0), 2)).1.filterMap uartOutcome :=
  C65_recovers flaky_delivers flaky_patient _ [[0x10, 0x01, 0x2A], [0x1A, 0x01, 0x01]] []
    (by intro p hp; simp only [List.mem_cons, List.not_mem_nil, or_false] at hp
        rcases hp with rfl | rfl
        · exact ⟨0x10, [0x2A], by decide, rfl⟩
        · exact ⟨0x1A, [0x01], by decide, rfl⟩) rfl _ (by decide)

/-- **C65** for an event link. -/
theorem C65_link_recovers (hd : Delivers k stream taken) (hp : Patient k stream taken patience) (s : σ)
    (packets : List (List UInt8)) (tail : List UInt8) (hf : ∀ p ∈ packets, Framed p)
    (hs : pending stream taken s = packets.flatten ++ tail) (n : Nat)
    (hn : packets.length + patience s ≤ n) :
    packets.map (Event.new c V) <+:
      (callTimes (EventLink.read c V k) n s).1.filterMap linkOutcome :=
  recover prefixFree_id (link_steps hd) (fun h1 h2 h3 => link_patient hd hp h1 h2 h3) n s packets tail hf (by rw [wire_id]; exact hs) hn

/-- Two packets and two failures: four calls are enough. -/
example : (callTimes (Uart.read ⟨false, false⟩ demoVendor flaky) 4
      ((uartBytes [[0x10, 0x01, 0x2A], [0x1A, 0x01, 0x01]], 0), 2)).1 =
    [.err (.other (.comm ())), .err (.other (.comm ())), .ok (.event (.hardwareError ⟨0x2A⟩)),
      .ok (.event (.dataBufferOverflow ⟨.acl⟩))] := by
  simp only [callTimes, uartRead_eq]
  rfl

example : Delivers flaky (·.1.1) (·.1.2) ∧ Patient flaky (·.1.1) (·.1.2) (·.2) :=
  ⟨flaky_delivers, flaky_patient⟩

/-- **C65**, why the number of failures must be bounded: `read` starts over after a failure, so a controller
that loses nothing and works two times out of three can keep it from ever delivering a packet. -/
theorem C65_bound_needed (n : Nat) :
    Delivers unlucky (·.1.1) (·.1.2) ∧
    (callTimes (Uart.read ⟨false, false⟩ demoVendor unlucky) n (([0x04, 0x10, 0x01, 0x2A], 0), 0)).1 =
      List.replicate n (.err (.other (.comm ()))) := by
  refine ⟨unlucky_delivers, ?_⟩
  have key : ∀ n i, (callTimes (Uart.read ⟨false, false⟩ demoVendor unlucky) n
      (([0x04, 0x10, 0x01, 0x2A], 0), 3 * i)).1 = List.replicate n (.err (.other (.comm ()))) := by
    intro n
    induction n with
    | zero => intro i; rfl
    | succ n ih =>
      intro i
      simp only [callTimes, unlucky_read i, List.replicate_succ, ih (i + 1)]
  exact key n 0

/-- The same bytes without failures. -/
example : (callTimes (Uart.read ⟨false, false⟩ demoVendor fifo) 1 ([0x04, 0x10, 0x01, 0x2A], 0)).1 =
    [.ok (.event (.hardwareError ⟨0x2A⟩))] := by
  simp only [callTimes, uartRead_eq]
  rfl

end Bt
