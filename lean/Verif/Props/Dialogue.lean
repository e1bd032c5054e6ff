import Verif.Lemmas.Dialogue
import Verif.Props.Answers

/-! # C80: every command is answered -/

namespace Bt

open Spec

variable {σ E : Type} {c : Cfg} {V : Vendor} {k : Controller σ E}
  {stream : σ → List UInt8} {taken : σ → Nat} {sent : σ → List UInt8} {before : Nat → σ}

/-- **C80.** In a session over a UART that never ends, in which the host again and again reads while the
controller serves three calls in a row: if the controller answers all commands it receives, in whatever order
and with whatever other packets in between, then every command that returned Ok is reported to be answered, by
the event at the place of its answer. -/
theorem C80_uart (hk : Duplex k stream taken sent)
    {acts : Nat → Act V.VStatus E (Res (Nb (UartError E V.VErr)) (UartPacket V))} (vinto : V.VStatus → UInt8)
    (h : Dialogue stream taken sent (Uart.read c V k) (·.exec uartHeader k vinto) (·.Constructible c) before acts)
    (hfair : ReadsFairly k stream taken 3 before acts) {slot : Nat → Nat}
    (hans : AnswersAll c V stream taken sent UartCarries uartBytes slot before)
    {n i : Nat} {cmd : Command V.VStatus} (hi : (Act.succeeded (firstActs acts n))[i]? = some cmd) :
    ∃ m e, ((Act.reads (firstActs acts m)).filterMap uartOutcome)[slot i]? = some (.ok e) ∧
      TellsAnswer cmd e := by
  obtain ⟨-, new, hs, hp⟩ := C64_uart hk vinto (dialogue_session h n)
  have hi' : (Act.accepted (firstActs acts n))[i]? = some (cmdOpcode cmd, cmdParams cmd) := by
    rw [accepted_succeeded, List.getElem?_map, hi]
    rfl
  obtain ⟨b, packets, answer, e, hf, hb, ha, hans, he⟩ := hans n new _ hs hp i _ _ hi'
  obtain ⟨m, -, t, ht⟩ := live_dialogue hk .uart prefixFree_uart (uart_steps hk.delivers)
    (fun h1 h2 h3 => uart_serves hk.delivers h1 h2 h3) h hfair hf hb
  refine ⟨m, e, ?_, answer_decoded c V hans he⟩
  rw [← ht, List.getElem?_append_left (by
    rw [List.length_map]; exact (List.getElem?_eq_some_iff.mp ha).1), List.getElem?_map, ha]
  exact congrArg some he

/-- Any host that issues commands from a script, as long as it reads again and again, and a controller that
answers at once: every command is reported to be answered, in order. -/
example (vinto : demoVendor.VStatus → UInt8) (script : Nat → Option (Command demoVendor.VStatus))
    (hs : ∀ i cmd, script i = some cmd → cmd.Constructible ⟨true, true⟩) (hr : ∀ i, ∃ j, i ≤ j ∧ script j = none)
    {n i : Nat} {cmd : Command demoVendor.VStatus}
    (hi : (Act.succeeded (firstActs (scriptedActs ⟨true, true⟩ demoVendor vinto script) n))[i]? = some cmd) :
    ∃ m e, ((Act.reads (firstActs (scriptedActs ⟨true, true⟩ demoVendor vinto script) m)).filterMap
      uartOutcome)[i]? = some (.ok e) ∧ TellsAnswer cmd e :=
  C80_uart (slot := id) responder_duplex vinto (scripted_dialogue hs)
    (fun i => by
      obtain ⟨j, hj, hn⟩ := hr i
      exact ⟨j, hj, ⟨_, by simp only [scriptedActs, hn]; rfl⟩, prompt_serves responder_prompt 3 _⟩)
    (scripted_all hs fun o => ⟨.commandStatus ⟨.success, 1, ⟨o⟩⟩,
      (C09_sound_and_complete ⟨true, true⟩ demoVendor _ _).mpr ⟨_, _, rfl, by simp [le16],
        .commandStatus (s := .success) (show StatusByte ⟨true, true⟩ demoVendor 0 .success from rfl)⟩⟩) hi

/-- **C80** for a device whose events and commands use two links; two calls in a row are enough. -/
theorem C80_two_links {σ₁ σ₂ : Type} {events : Controller σ₁ E} {commands : Controller σ₂ E}
    {stream : σ₁ → List UInt8} {taken : σ₁ → Nat} {sent : σ₂ → List UInt8}
    (hd : Delivers events stream taken) (hw : WritesAtomically commands sent) {before : Nat → σ₁ × σ₂}
    {acts : Nat → Act V.VStatus E (Res (Nb (EventLinkError E V.VErr)) V.Ev)} (vinto : V.VStatus → UInt8)
    (h : Dialogue (fun s => stream s.1) (fun s => taken s.1) (fun s => sent s.2)
      (EventLink.read c V (twoLinks events commands))
      (·.exec cmdLinkHeader (twoLinks events commands) vinto) (·.Constructible c) before acts)
    (hfair : ReadsFairly (twoLinks events commands) (fun s => stream s.1) (fun s => taken s.1) 2 before acts)
    {slot : Nat → Nat}
    (hans : AnswersAll c V (fun s => stream s.1) (fun s => taken s.1) (fun s => sent s.2) LinkCarries
      List.flatten slot before)
    {n i : Nat} {cmd : Command V.VStatus} (hi : (Act.succeeded (firstActs acts n))[i]? = some cmd) :
    ∃ m e, ((Act.reads (firstActs acts m)).filterMap linkOutcome)[slot i]? = some (.ok e) ∧
      TellsAnswer cmd e := by
  have hk := twoLinks_duplex hd hw
  have hs := (C64_two_links hd hw vinto (dialogue_session h n)).2
  have hl := (session_sent hk .cmdLink (link_sends_nothing hk) (dialogue_session h n)).2
  have hi' : (Act.accepted (firstActs acts n))[i]? = some (cmdOpcode cmd, cmdParams cmd) := by
    rw [accepted_succeeded, List.getElem?_map, hi]
    rfl
  obtain ⟨b, packets, answer, e, hf, hb, ha, hans, he⟩ := hans n _ _ hs ⟨hl, rfl⟩ i _ _ hi'
  obtain ⟨m, -, t, ht⟩ := live_dialogue hk .cmdLink prefixFree_id (link_steps hk.delivers)
    (fun h1 h2 h3 => link_serves hk.delivers h1 h2 h3) h hfair hf (by rw [wire_id]; exact hb)
  refine ⟨m, e, ?_, answer_decoded c V hans he⟩
  rw [← ht, List.getElem?_append_left (by
    rw [List.length_map]; exact (List.getElem?_eq_some_iff.mp ha).1), List.getElem?_map, ha]
  exact congrArg some he

/-- Reset is sent, and answered by the second packet; then the host goes on reading for ever. -/
example :
    let q : List UInt8 := [0x10, 0x01, 0x2A, 0x0E, 4, 1, 0x03, 0x0C, 0]
    let before : Nat → Fifo × Modem
      | 0 => ((q, 0), ⟨([], 0), []⟩)
      | 1 => ((q, 0), ⟨([], 0), [0x03, 0x0C, 0]⟩)
      | 2 => ((q, 3), ⟨([], 0), [0x03, 0x0C, 0]⟩)
      | _ => ((q, 9), ⟨([], 0), [0x03, 0x0C, 0]⟩)
    let acts : Nat → Act UInt8 Unit (Res (Nb (EventLinkError Unit demoVendor.VErr)) demoVendor.Ev)
      | 0 => .command .reset (.ok ())
      | 1 => .read (.ok (.hardwareError ⟨0x2A⟩))
      | 2 => .read (.ok (.commandComplete ⟨1, .reset .success⟩))
      | _ => .read (.err .wouldBlock)
    Dialogue (fun s => s.1.1) (fun s => s.1.2) (fun s => s.2.sent)
      (EventLink.read ⟨false, false⟩ demoVendor (twoLinks fifo modem))
      (·.exec cmdLinkHeader (twoLinks fifo modem) id) (·.Constructible ⟨false, false⟩) before acts ∧
    ReadsFairly (twoLinks fifo modem) (fun s => s.1.1) (fun s => s.1.2) 2 before acts ∧
    AnswersAll ⟨false, false⟩ demoVendor (fun s => s.1.1) (fun s => s.1.2) (fun s => s.2.sent) LinkCarries
      List.flatten (· + 1) before := by
  intro q before acts
  have hsent : ∀ a, (before a).2.sent = [] ∨ (before a).2.sent = [0x03, 0x0C, 0] := by
    intro a
    rcases a with _ | _ | _ | a
    · exact .inl rfl
    all_goals exact .inr rfl
  have r1 : EventLink.read ⟨false, false⟩ demoVendor (twoLinks fifo modem) (before 1) =
      (.ok (.hardwareError ⟨0x2A⟩), before 2) := by
    show EventLink.read _ _ _ (([0x10, 0x01, 0x2A, 0x0E, 4, 1, 0x03, 0x0C, 0], 0), (⟨([], 0), [0x03, 0x0C, 0]⟩ : Modem)) =
      (_, (([0x10, 0x01, 0x2A, 0x0E, 4, 1, 0x03, 0x0C, 0], 3), _))
    rw [linkRead_eq]; rfl
  have r2 : EventLink.read ⟨false, false⟩ demoVendor (twoLinks fifo modem) (before 2) =
      (.ok (.commandComplete ⟨1, .reset .success⟩), before 3) := by
    show EventLink.read _ _ _ (([0x10, 0x01, 0x2A, 0x0E, 4, 1, 0x03, 0x0C, 0], 3), (⟨([], 0), [0x03, 0x0C, 0]⟩ : Modem)) =
      (_, (([0x10, 0x01, 0x2A, 0x0E, 4, 1, 0x03, 0x0C, 0], 9), _))
    rw [linkRead_eq]; rfl
  have r3 : EventLink.read ⟨false, false⟩ demoVendor (twoLinks fifo modem) (before 3) =
      (.err .wouldBlock, before 3) := by
    show EventLink.read _ _ _ (([0x10, 0x01, 0x2A, 0x0E, 4, 1, 0x03, 0x0C, 0], 9), (⟨([], 0), [0x03, 0x0C, 0]⟩ : Modem)) =
      (_, (([0x10, 0x01, 0x2A, 0x0E, 4, 1, 0x03, 0x0C, 0], 9), _))
    rw [linkRead_eq]; rfl
  refine ⟨?_, ?_, ?_⟩
  · intro i
    rcases i with _ | _ | _ | i
    · exact ⟨_, ⟨trivial, rfl⟩, List.prefix_rfl, rfl, rfl⟩
    · exact ⟨_, r1, List.prefix_rfl, rfl, rfl⟩
    · exact ⟨_, r2, List.prefix_rfl, rfl, rfl⟩
    · exact ⟨_, r3, List.prefix_rfl, rfl, rfl⟩
  · intro i
    refine ⟨i + 3, by omega, ⟨_, rfl⟩, prompt_serves (k := twoLinks fifo modem) (stream := fun s => s.1.1) (taken := fun s => s.1.2)
      ⟨fun n s h => fifo_prompt.peek n s.1 h, fun n s h => fifo_prompt.readInto n s.1 h⟩ 2 _⟩
  · intro a new commands hn hc i o args hi
    obtain ⟨hl, hc⟩ := hc
    have hnew : new = [] ∨ new = [0x03, 0x0C, 0] := by
      rcases hsent a with h | h
      · exact .inl (hn.symm.trans h)
      · exact .inr (hn.symm.trans h)
    have hcs : ∃ cs, (cs = [] ∨ cs = [((0x0C03 : UInt16), ([] : List UInt8))]) ∧ commands = cs := by
      rcases hnew with rfl | rfl
      · exact ⟨[], .inl rfl, link_packets_inj _ _ hl (by simp) hc.symm⟩
      · exact ⟨[(0x0C03, [])], .inr rfl, link_packets_inj _ _ hl (by simp) (hc.symm.trans (by decide))⟩
    obtain ⟨cs, rfl | rfl, rfl⟩ := hcs
    · cases hi
    · cases i with
      | succ i => simp at hi
      | zero =>
        cases hi
        refine ⟨0, [[0x10, 0x01, 0x2A], [0x0E, 4, 1, 0x03, 0x0C, 0]], [0x0E, 4, 1, 0x03, 0x0C, 0],
          .commandComplete ⟨1, .reset .success⟩, ?_, List.prefix_rfl, rfl,
          .complete (o := 0x0C03) (n := 1) (ps := [0]) (by decide), rfl⟩
        intro p hp
        simp only [List.mem_cons, List.not_mem_nil, or_false] at hp
        rcases hp with rfl | rfl
        · exact ⟨0x10, [0x2A], by decide, rfl⟩
        · exact ⟨0x0E, [1, 0x03, 0x0C, 0], by decide, rfl⟩

end Bt
