import Verif.Spec.StandardDialogue
import Verif.Props.Dialogue
import Verif.Props.StandardEvents

/-! # C85: dialogues with a conforming controller -/

namespace Bt

open Spec

variable {σ E : Type} {c : Cfg} {V : Vendor} {k : Controller σ E}
  {stream : σ → List UInt8} {taken : σ → Nat} {sent : σ → List UInt8} {before : Nat → σ}

theorem answers_answer {o : UInt16} {x : StdEvent} (ha : x.Answers o) (hx : x.Conforms c) : Answer o x.packet := by
  cases ha with
  | complete ho =>
    subst ho
    refine .complete ?_
    have := hx.length
    simp only [StdEvent.params, List.length_append, List.length_cons, length_le16] at this ⊢
    omega
  | status => exact .status

theorem answers_accepted {o : UInt16} {x : StdEvent} (ha : x.Answers o) (hx : x.Conforms c) (hr : x.InRange c) :
    ∃ e, Event.new c V x.packet = .ok e ∧ x.Means c V e := by
  refine (C82_understood_partial x hx).mpr ⟨hr, ?_, ?_⟩
  · intro h; cases ha <;> cases h
  · intro h; cases ha <;> cases h

/-- **C85.** In a session over a UART that never ends, in which the host again and again reads while the
controller serves three calls in a row, and with a controller that answers all commands as the standard says:
every command that returned Ok is reported to be answered, by an event that says what the answer of the
controller says. -/
theorem C85_uart (hk : Duplex k stream taken sent)
    {acts : Nat → Act V.VStatus E (Res (Nb (UartError E V.VErr)) (UartPacket V))} (vinto : V.VStatus → UInt8)
    (h : Dialogue stream taken sent (Uart.read c V k) (·.exec uartHeader k vinto) (·.Constructible c) before acts)
    (hfair : ReadsFairly k stream taken 3 before acts) {slot : Nat → Nat} {answer : Nat → StdEvent}
    (hans : AnswersByStandard c stream taken sent UartCarries uartBytes slot answer before)
    {n i : Nat} {cmd : Command V.VStatus} (hi : (Act.succeeded (firstActs acts n))[i]? = some cmd) :
    ∃ m e, ((Act.reads (firstActs acts m)).filterMap uartOutcome)[slot i]? = some (.ok e) ∧
      TellsAnswer cmd e ∧ (answer i).Means c V e := by
  obtain ⟨-, new, hs, hp⟩ := C64_uart hk vinto (dialogue_session h n)
  have hi' : (Act.accepted (firstActs acts n))[i]? = some (cmdOpcode cmd, cmdParams cmd) := by
    rw [accepted_succeeded, List.getElem?_map, hi]
    rfl
  obtain ⟨b, xs, hx, hb, hxi, ha, hr⟩ := hans n new _ hs hp i _ _ hi'
  have hc := hx _ (List.mem_of_getElem? hxi)
  obtain ⟨e, he, hm⟩ := answers_accepted (V := V) ha hc hr
  obtain ⟨m, -, t, ht⟩ := live_dialogue hk .uart prefixFree_uart (uart_steps hk.delivers)
    (fun h1 h2 h3 => uart_serves hk.delivers h1 h2 h3) h hfair (std_framed hx) hb
  refine ⟨m, e, ?_, answer_decoded c V (answers_answer ha hc) he, hm⟩
  rw [← ht, List.getElem?_append_left (by
    rw [List.length_map, List.length_map]; exact (List.getElem?_eq_some_iff.mp hxi).1), List.getElem?_map,
    List.getElem?_map, hxi]
  exact congrArg some he

/-- The responder answers as the standard says. -/
theorem scripted_standard {vinto : V.VStatus → UInt8} {script : Nat → Option (Command V.VStatus)} {o : UInt16}
    (hs : ∀ i cmd, script i = some cmd → cmd.Constructible c)
    (ho : ∀ i cmd, script i = some cmd → cmdOpcode cmd = o) :
    AnswersByStandard c (·.queue.1) (·.queue.2) (·.sent) UartCarries uartBytes id
      (fun _ => .commandStatus 0 1 o) (scripted c V vinto script) := by
  intro a new commands hn hp i o' args hi
  obtain ⟨h1, h2⟩ := session_sent responder_duplex .uart (uart_sends_nothing responder_duplex)
    (dialogue_session (scripted_dialogue (vinto := vinto) hs) a)
  obtain rfl := List.append_cancel_left (hn.symm.trans h1)
  obtain rfl := Option.some.inj ((parse_all _ h2).symm.trans hp)
  have hall : ∀ p ∈ Act.accepted (firstActs (scriptedActs c V vinto script) a), p.1 = o := by
    intro p hp
    obtain ⟨act, hm, ha⟩ := List.mem_filterMap.mp hp
    obtain ⟨j, -, rfl⟩ := List.mem_map.mp hm
    unfold scriptedActs at ha
    cases hj : script j with
    | none => rw [hj] at ha; cases ha
    | some cmd =>
      rw [hj] at ha
      simp only at ha
      split at ha
      · rename_i h
        obtain ⟨rfl, -⟩ := Act.command.inj h
        cases ha
        exact ho j _ hj
      · cases ha
  obtain rfl := hall _ (List.mem_of_getElem? hi)
  refine ⟨a, (Act.accepted (firstActs (scriptedActs c V vinto script) a)).map fun p => .commandStatus 0 1 p.1,
    ?_, ?_, ?_, .status, trivial⟩
  · intro x hx
    obtain ⟨p, -, rfl⟩ := List.mem_map.mp hx
    refine ⟨?_, .inr trivial, (by intro n o st h; cases h), by simp [StdEvent.params]⟩
    intro b hb
    rw [List.mem_singleton.mp hb]
    unfold statusCount
    split <;> decide
  · show _ <+: List.drop _ (scripted c V vinto script a).queue.1
    rw [scripted_answers hs a, List.map_map]
    exact List.prefix_rfl
  · rw [id, List.getElem?_map, hi]
    rfl

/-- A host that resets the controller again and again, and reads in between. -/
example {n i : Nat} {cmd : Command demoVendor.VStatus}
    (hi : (Act.succeeded (firstActs (scriptedActs ⟨true, true⟩ demoVendor id
      fun j => if j % 2 = 0 then some .reset else none) n))[i]? = some cmd) :
    ∃ m e, ((Act.reads (firstActs (scriptedActs ⟨true, true⟩ demoVendor id
      fun j => if j % 2 = 0 then some .reset else none) m)).filterMap uartOutcome)[i]? = some (.ok e) ∧
      TellsAnswer cmd e ∧ (StdEvent.commandStatus 0 1 0x0C03).Means ⟨true, true⟩ demoVendor e := by
  have hs : ∀ j cmd, (if j % 2 = 0 then some (.reset : Command demoVendor.VStatus) else none) = some cmd →
      cmd = .reset := by
    intro j cmd h
    split at h
    · exact (Option.some.inj h).symm
    · cases h
  have hc : ∀ j cmd, (if j % 2 = 0 then some (.reset : Command demoVendor.VStatus) else none) = some cmd →
      cmd.Constructible ⟨true, true⟩ := fun j cmd h => by rw [hs j cmd h]; trivial
  exact C85_uart (slot := id) (answer := fun _ => .commandStatus 0 1 0x0C03) responder_duplex id
    (scripted_dialogue hc)
    (fun i => ⟨2 * i + 1, by omega, ⟨_, by
      have h : (2 * i + 1) % 2 ≠ 0 := by omega
      simp only [scriptedActs, h, if_false]; rfl⟩, prompt_serves responder_prompt 3 _⟩)
    (scripted_standard hc fun j cmd h => by rw [hs j cmd h]; rfl) hi

/-- **C85** for a device whose events and commands use two links; two calls in a row are enough. -/
theorem C85_two_links {σ₁ σ₂ : Type} {events : Controller σ₁ E} {commands : Controller σ₂ E}
    {stream : σ₁ → List UInt8} {taken : σ₁ → Nat} {sent : σ₂ → List UInt8}
    (hd : Delivers events stream taken) (hw : WritesAtomically commands sent) {before : Nat → σ₁ × σ₂}
    {acts : Nat → Act V.VStatus E (Res (Nb (EventLinkError E V.VErr)) V.Ev)} (vinto : V.VStatus → UInt8)
    (h : Dialogue (fun s => stream s.1) (fun s => taken s.1) (fun s => sent s.2)
      (EventLink.read c V (twoLinks events commands))
      (·.exec cmdLinkHeader (twoLinks events commands) vinto) (·.Constructible c) before acts)
    (hfair : ReadsFairly (twoLinks events commands) (fun s => stream s.1) (fun s => taken s.1) 2 before acts)
    {slot : Nat → Nat} {answer : Nat → StdEvent}
    (hans : AnswersByStandard c (fun s => stream s.1) (fun s => taken s.1) (fun s => sent s.2) LinkCarries
      List.flatten slot answer before)
    {n i : Nat} {cmd : Command V.VStatus} (hi : (Act.succeeded (firstActs acts n))[i]? = some cmd) :
    ∃ m e, ((Act.reads (firstActs acts m)).filterMap linkOutcome)[slot i]? = some (.ok e) ∧
      TellsAnswer cmd e ∧ (answer i).Means c V e := by
  have hk := twoLinks_duplex hd hw
  have hs := (C64_two_links hd hw vinto (dialogue_session h n)).2
  have hl := (session_sent hk .cmdLink (link_sends_nothing hk) (dialogue_session h n)).2
  have hi' : (Act.accepted (firstActs acts n))[i]? = some (cmdOpcode cmd, cmdParams cmd) := by
    rw [accepted_succeeded, List.getElem?_map, hi]
    rfl
  obtain ⟨b, xs, hx, hb, hxi, ha, hr⟩ := hans n _ _ hs ⟨hl, rfl⟩ i _ _ hi'
  have hc := hx _ (List.mem_of_getElem? hxi)
  obtain ⟨e, he, hm⟩ := answers_accepted (V := V) ha hc hr
  obtain ⟨m, -, t, ht⟩ := live_dialogue hk .cmdLink prefixFree_id (link_steps hk.delivers)
    (fun h1 h2 h3 => link_serves hk.delivers h1 h2 h3) h hfair (std_framed hx) (by rw [wire_id]; exact hb)
  refine ⟨m, e, ?_, answer_decoded c V (answers_answer ha hc) he, hm⟩
  rw [← ht, List.getElem?_append_left (by
    rw [List.length_map, List.length_map]; exact (List.getElem?_eq_some_iff.mp hxi).1), List.getElem?_map,
    List.getElem?_map, hxi]
  exact congrArg some he

/-- The controller of the example of `C80_two_links`, which answers Reset by its second event, answers by the
standard. -/
example :
    let q : List UInt8 := [0x10, 0x01, 0x2A, 0x0E, 4, 1, 0x03, 0x0C, 0]
    let before : Nat → Fifo × Modem
      | 0 => ((q, 0), ⟨([], 0), []⟩)
      | 1 => ((q, 0), ⟨([], 0), [0x03, 0x0C, 0]⟩)
      | 2 => ((q, 3), ⟨([], 0), [0x03, 0x0C, 0]⟩)
      | _ => ((q, 9), ⟨([], 0), [0x03, 0x0C, 0]⟩)
    AnswersByStandard ⟨false, false⟩ (fun s => s.1.1) (fun s => s.1.2) (fun s => s.2.sent) LinkCarries
      List.flatten (· + 1) (fun _ => .commandComplete 1 (.statusOnly 0x0C03 0)) before := by
  intro q before a new commands hn hc i o args hi
  obtain ⟨hl, hc⟩ := hc
  have hsent : (before a).2.sent = [] ∨ (before a).2.sent = [0x03, 0x0C, 0] := by
    rcases a with _ | _ | _ | a
    · exact .inl rfl
    all_goals exact .inr rfl
  have hnew : new = [] ∨ new = [0x03, 0x0C, 0] := by
    rcases hsent with h | h
    · exact .inl (hn.symm.trans h)
    · exact .inr (hn.symm.trans h)
  have hcs : ∃ cs, (cs = [] ∨ cs = [((0x0C03 : UInt16), ([] : List UInt8))]) ∧ commands = cs := by
    rcases hnew with rfl | rfl
    · exact ⟨[], .inl rfl, link_packets_inj _ _ hl (by simp) hc.symm⟩
    · exact ⟨[(0x0C03, [])], .inr rfl, link_packets_inj _ _ hl (by simp) (hc.symm.trans (by decide))⟩
  obtain ⟨cs, rfl | rfl, rfl⟩ := hcs
  · cases hi
  · cases i with
    | succ i => simp at hi
    | zero =>
      cases hi
      refine ⟨0, [.hardwareError 0x2A, .commandComplete 1 (.statusOnly 0x0C03 0)], ?_, List.prefix_rfl, rfl,
        .complete rfl, trivial⟩
      intro x hx
      simp only [List.mem_cons, List.not_mem_nil, or_false] at hx
      rcases hx with rfl | rfl
      · exact ⟨fun b hb => (by cases hb), .inr trivial, (by intro n o st h; cases h), by decide⟩
      · refine ⟨?_, .inr trivial, ?_, by decide⟩
        · intro b hb
          rw [List.mem_singleton.mp hb]
          decide
        · intro n o st h
          cases h
          decide

end Bt
