import Verif.Lemmas.Errors
import Verif.Props.Commands
import Verif.Props.Streams
import Verif.Props.Windows
import Verif.Spec.Demo

/-! # C96: the errors an application can be given are exactly the possible ones -/

namespace Bt

open Spec

variable {c : Cfg} {V : Vendor}

/-- **C96.** The errors of correctly framed packets. -/
theorem C96_framed (e : EvError V.VErr) :
    (∃ code ps, ps.length ≤ 255 ∧ Event.new c V (frame code ps) = .err e) ↔ FramedError c V e ∨ VendorError V e := by
  constructor
  · rintro ⟨code, ps, hp, h⟩
    rcases C26_truthful c V _ e h with ⟨a, b, rfl, hf⟩ | ⟨code', ps', -, hp', i, hf⟩
    · exact .inl (length_fault_framed hp hf)
    · exact fault_possible c V hp' hf
  · intro h
    obtain ⟨code, ps, hp, h⟩ : Occurs c V e := h.elim framed_error_occurs vendor_error_occurs
    exact ⟨code, ps, hp, by rw [event_framed c V code ps hp, h]⟩

/-- Role 2 does not exist. -/
example : FramedError ⟨false, false⟩ demoVendor (.badLeConnectionRole 2) ∧
    ¬ FramedError ⟨false, false⟩ demoVendor (.badLeConnectionRole 1) ∧
    Event.new ⟨false, false⟩ demoVendor (frame 0x3E (1 :: 0 :: 1 :: 0 :: 2 :: List.replicate 14 0)) =
      .err (.badLeConnectionRole 2) := ⟨by show (1 : UInt8) < 2; decide, by show ¬ (1 : UInt8) < 1; decide, rfl⟩

/-- A command complete event of 3 bytes for Read Local Version Information lacks all 9 bytes of the reply. -/
example : WrongLength 0 9 ∧ ¬ WrongLength 9 9 ∧ ¬ WrongLength 0 5 := by
  refine ⟨⟨by decide, .inr (.inr (.inr (by decide)))⟩, fun h => h.1 rfl, ?_⟩
  rintro ⟨-, h | h | h | h⟩ <;> simp at h

/-- **C96.** The errors of all byte strings. -/
theorem C96_exactly (e : EvError V.VErr) :
    (∃ packet, Event.new c V packet = .err e) ↔ FramedError c V e ∨ VendorError V e ∨ FramingError e := by
  constructor
  · rintro ⟨packet, h⟩
    rcases packet_cases packet with hs | ⟨code, n, ps, rfl, hn⟩ | ⟨code, ps, rfl, hl⟩
    · rw [event_short c V packet hs] at h
      cases h
      exact .inr (.inr ⟨_, _, rfl, .inl ⟨hs, rfl⟩⟩)
    · rw [event_misframed c V code n ps hn] at h
      cases h
      have := n.toNat_lt
      exact .inr (.inr ⟨_, _, rfl, .inr (by simp; omega)⟩)
    · rcases (C96_framed e).mp ⟨code, ps, hl, h⟩ with h | h
      · exact .inl h
      · exact .inr (.inl h)
  · rintro (h | h | ⟨a, r, rfl, h⟩)
    · obtain ⟨code, ps, -, h⟩ := (C96_framed (c := c) e).mpr (.inl h)
      exact ⟨_, h⟩
    · obtain ⟨code, ps, -, h⟩ := (C96_framed (c := c) e).mpr (.inr h)
      exact ⟨_, h⟩
    · rcases h with ⟨ha, rfl⟩ | ⟨ha, hr, hr', hne⟩
      · refine ⟨List.replicate a 0, ?_⟩
        rw [event_short c V _ (by simpa using ha), List.length_replicate]
      · have hn : (UInt8.ofNat (r - 2)).toNat = r - 2 := by rw [UInt8.toNat_ofNat']; omega
        refine ⟨0 :: UInt8.ofNat (r - 2) :: List.replicate (a - 2) 0, ?_⟩
        rw [event_misframed c V _ _ _ (by rw [hn, List.length_replicate]; omega), hn]
        simp only [List.length_replicate]
        congr 2 <;> omega

/-- The length byte claims 3 parameters, there is 1. -/
example : Event.new ⟨false, false⟩ demoVendor [0x10, 3, 0] = .err (.badLength 3 5) ∧
    FramingError (.badLength 3 5 : EvError demoVendor.VErr) ∧
    ¬ FramingError (.badLength 5 5 : EvError demoVendor.VErr) := by
  refine ⟨rfl, ⟨3, 5, rfl, .inr (by decide)⟩, ?_⟩
  rintro ⟨a, r, h, h'⟩
  cases h
  omega

variable {σ E : Type} {k : Controller σ E} {stream : σ → List UInt8} {taken : σ → Nat}

/-- **C96** (`uart`). An application that reads is given the errors of framed packets only, whatever arrives. -/
theorem C96_uart (hd : Delivers k stream taken) (s s' : σ) (e : EvError V.VErr)
    (h : Uart.read c V k s = (.err (.other (.ble e)), s')) : FramedError c V e ∨ VendorError V e := by
  obtain ⟨-, ⟨-, h | ⟨_, h⟩⟩ | ⟨-, b, -, -, h⟩ | ⟨code, ps, hp, -, -, h⟩⟩ := uart_step hd h
  · cases h
  · cases h
  · cases h
  · refine (C96_framed e).mp ⟨code, ps, hp, ?_⟩
    cases hn : Event.new c V (frame code ps) <;> rw [hn] at h <;> cases h
    rfl

/-- **C96** (`uart`). All of them can be given: a receive queue can hold such a packet. -/
theorem C96_uart_occurs (e : EvError V.VErr) :
    (∃ s s', Uart.read c V fifo s = (.err (.other (.ble e)), s')) ↔ FramedError c V e ∨ VendorError V e := by
  constructor
  · rintro ⟨s, s', h⟩
    exact C96_uart fifo_delivers s s' e h
  · intro h
    obtain ⟨code, ps, hp, h⟩ := (C96_framed (c := c) e).mpr h
    obtain ⟨s', h', -⟩ := uart_progress (c := c) (V := V) fifo_delivers fifo_prompt (s := (0x04 :: frame code ps, 0))
      (code := code) (tail := []) hp (by simp [pending])
    exact ⟨_, s', by rw [h', h]; rfl⟩

example : (Uart.read ⟨false, false⟩ demoVendor fifo ([0x04, 0x1A, 1, 7], 0)).1 =
    .err (.other (.ble (.badLinkType 7))) := by
  rw [uartRead_eq]; rfl

/-- **C96** (`event_link`). An application that reads is given the errors of framed packets only. -/
theorem C96_event_link (hd : Delivers k stream taken) (s s' : σ) (e : EvError V.VErr)
    (h : EventLink.read c V k s = (.err (.other (.ble e)), s')) : FramedError c V e ∨ VendorError V e := by
  obtain ⟨-, ⟨-, h | ⟨_, h⟩⟩ | ⟨code, ps, hp, -, -, h⟩⟩ := link_step hd h
  · cases h
  · cases h
  · refine (C96_framed e).mp ⟨code, ps, hp, ?_⟩
    cases hn : Event.new c V (frame code ps) <;> rw [hn] at h <;> cases h
    rfl

/-- **C96** (`event_link`). All of them can be given. -/
theorem C96_event_link_occurs (e : EvError V.VErr) :
    (∃ s s', EventLink.read c V fifo s = (.err (.other (.ble e)), s')) ↔ FramedError c V e ∨ VendorError V e := by
  constructor
  · rintro ⟨s, s', h⟩
    exact C96_event_link fifo_delivers s s' e h
  · intro h
    obtain ⟨code, ps, hp, h⟩ := (C96_framed (c := c) e).mpr h
    obtain ⟨s', h', -⟩ := link_progress (c := c) (V := V) fifo_delivers fifo_prompt (s := (frame code ps, 0))
      (code := code) (tail := []) hp (by simp [pending])
    exact ⟨_, s', by rw [h', h]; rfl⟩

example : (EventLink.read ⟨false, false⟩ demoVendor fifo ([0x1A, 1, 7], 0)).1 =
    .err (.other (.ble (.badLinkType 7))) := by
  rw [linkRead_eq]; rfl

/-- A controller that fails to write, with the error that is its state. -/
def failing (E : Type) : Controller E E where
  write _ _ := fun s => (.err (.other s), s)
  readInto _ := fun s => (.err (.other s), s)
  peek _ := fun s => (.err (.other s), s)

/-- A controller that writes, and receives nothing. -/
def silent (E : Type) : Controller Unit E where
  write _ _ := fun s => (.ok (), s)
  readInto _ := fun s => (.err .wouldBlock, s)
  peek _ := fun s => (.err .wouldBlock, s)

/-- **C96** (commands). The errors that the methods of commands return, over all calls and controllers, are exactly
these; `BadConnectionLengthRange`, documented for creating a connection, is not among them. -/
theorem C96_commands {VS : Type} (c : Cfg) (l : Link) (vinto : VS → UInt8) (e : HostError E VS) :
    (∃ (σ : Type) (k : Controller σ E) (cmd : Command VS) (s : σ), cmd.Constructible c ∧
      (∀ h r, cmd = .disconnect h r → r.available c = true) ∧
      (cmd.exec (linkHeader l) k vinto s).1 = .err (.other e)) ↔ CommandError c e := by
  constructor
  · rintro ⟨σ, k, cmd, s, hc, hav, h⟩
    by_cases he : ∃ x, e = .comm x
    · obtain ⟨x, rfl⟩ := he
      trivial
    · rw [C40_conditions c l k vinto cmd hc e (fun x h => he ⟨x, h⟩) s] at h
      rcases h with ⟨_, r, rfl, rfl, h⟩ | ⟨a, -, rfl, h⟩ | ⟨p, -, rfl, -⟩ | ⟨d, -, rfl, h⟩ | ⟨_, -, rfl, -⟩ |
        ⟨ch, -, rfl, h⟩ | ⟨_, n, _, -, rfl, -, h⟩
      · simp only [CommandError, List.mem_cons, List.not_mem_nil, or_false, not_or]
        exact ⟨hav _ _ rfl, h⟩
      · exact h
      · rfl
      · exact h
      · trivial
      · exact h
      · exact h
  · intro h
    have rej (cmd : Command VS) (hc : cmd.Constructible c) (ha : ∀ h r, cmd = .disconnect h r → r.available c = true)
        (hr : cmdReject cmd = some e) : ∃ (σ : Type) (k : Controller σ E) (cmd : Command VS) (s : σ),
          cmd.Constructible c ∧ (∀ h r, cmd = .disconnect h r → r.available c = true) ∧
          (cmd.exec (linkHeader l) k vinto s).1 = .err (.other e) :=
      ⟨Unit, silent E, cmd, (), hc, ha, by rw [C40_rejected c l _ vinto cmd hc e hr]⟩
    cases e with
    | comm x =>
      refine ⟨E, failing E, .reset, x, trivial, (by rintro _ _ ⟨⟩), ?_⟩
      rw [exec_eq c l (failing E) vinto .reset trivial]
      rfl
    | badConnectionLengthRange => exact h.elim
    | badDisconnectionReason r =>
      have h' : CommandError (E := E) c (.badDisconnectionReason r) := h
      simp only [CommandError, List.mem_cons, List.not_mem_nil, or_false, not_or] at h'
      exact rej (.disconnect ⟨0⟩ r) trivial (by rintro _ _ ⟨⟩; exact h'.1) <| (cmdReject_iff _ _).mpr
          (.inl ⟨_, r, rfl, rfl, h'.2⟩)
    | badRandomAddress a =>
      exact rej (.leSetRandomAddress a) trivial (by rintro _ _ ⟨⟩) <| (cmdReject_iff _ _).mpr
          (.inr (.inl ⟨a, rfl, rfl, h⟩))
    | badChannelMap m =>
      obtain rfl : m = 0 := h
      exact rej (.leSetAdvertisingParameters ⟨⟨Duration.secs 0, Duration.secs 0, .connectableDirectedHighDutyCycle⟩,
          .pub, .pub ⟨Arr.zero 6⟩, 0, .allowConnectionAndScan⟩)
        ⟨.connectableDirectedHighDutyCycle, .inl rfl⟩ (by rintro _ _ ⟨⟩) <| (cmdReject_iff _ _).mpr
          (.inr (.inr (.inl ⟨_, rfl, rfl, rfl⟩)))
    | advertisingDataTooLong n =>
      have h : 31 < n := h
      exact rej (.leSetAdvertisingData (List.replicate n 0)) trivial (by rintro _ _ ⟨⟩) <| (cmdReject_iff _ _).mpr
          (.inr (.inr (.inr (.inl ⟨_, .inl rfl, by rw [List.length_replicate],
            by rw [List.length_replicate]; exact h⟩))))
    | noValidChannel =>
      exact rej (.leSetHostChannelClassification ⟨Arr.zero 5⟩) trivial (by rintro _ _ ⟨⟩) <| (cmdReject_iff _ _).mpr
          (.inr (.inr (.inr (.inr (.inl ⟨_, rfl, rfl, by decide⟩)))))
    | invalidTestChannel ch =>
      exact rej (.leReceiverTest ch) trivial (by rintro _ _ ⟨⟩) <| (cmdReject_iff _ _).mpr
          (.inr (.inr (.inr (.inr (.inr (.inl ⟨ch, .inl rfl, rfl, h⟩))))))
    | invalidTestPayloadLength n =>
      exact rej (.leTransmitterTest 0 n .all1) trivial (by rintro _ _ ⟨⟩) <| (cmdReject_iff _ _).mpr
          (.inr (.inr (.inr (.inr (.inr (.inr ⟨0, n, _, rfl, rfl, by decide, h⟩))))))

/-- The only way to an error about a range of connection lengths is the constructor's own error. -/
example : ¬ CommandError (E := Unit) (VS := Empty) ⟨false, false⟩
      (.badConnectionLengthRange (Duration.millis 2) (Duration.millis 1)) ∧
    CommandError (E := Unit) (VS := Empty) ⟨false, false⟩ (.badDisconnectionReason .success) ∧
    ¬ CommandError (E := Unit) (VS := Empty) ⟨false, false⟩ (.badDisconnectionReason .authFailure) ∧
    ExpectedConnectionLength.new (Duration.millis 2) (Duration.millis 1) =
      .err (.inverted (Duration.millis 2) (Duration.millis 1)) :=
  ⟨id, by simp [CommandError, Status.available], by simp [CommandError], rfl⟩

end Bt
