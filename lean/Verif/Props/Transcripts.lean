import Verif.Lemmas.Streams
import Verif.Props.Events
import Verif.Props.FirstFault
import Verif.Spec.Controllers
import Verif.Spec.Demo
import Verif.Spec.Transcripts

/-! # C72: what `read` returns is determined by the conversation with the controller -/

namespace Bt

open Spec

variable {σ E : Type} {c : Cfg} {V : Vendor}

theorem stops_uart {α β : Type} {VE : Type} (e : Nb E) :
    Stops (α := α) (β := β) (UartError.comm (VE := VE)) (.err e) (.err (Uart.rewrapError e)) := by
  cases e
  · exact .wouldBlock
  · exact .failed _

theorem stops_link {α β : Type} {VE : Type} (e : Nb E) :
    Stops (α := α) (β := β) (EventLinkError.comm (VE := VE)) (.err e) (.err (EventLink.rewrapError e)) := by
  cases e
  · exact .wouldBlock
  · exact .failed _

theorem decodesTo_uart (hV : VendorReturns V) (packet : List UInt8) (r : Res (Nb (UartError E V.VErr)) (UartPacket V)) :
    DecodesTo c V .event .ble packet r ↔ r = uartResult (Event.new c V packet) := by
  constructor
  · rintro (h | h | h)
    · rw [(C09_sound_and_complete c V _ _).mpr h]; rfl
    · rw [(C63_first_fault c V hV _ _).mpr h]; rfl
    · rw [(C13_panics_iff c V hV _).mpr h]; rfl
  · rintro rfl
    cases h : Event.new c V packet with
    | ok e => exact .event ((C09_sound_and_complete c V _ _).mp h)
    | err e => exact .fault ((C63_first_fault c V hV _ _).mp h)
    | panic => exact .panics ((C13_panics_iff c V hV _).mp h)

theorem decodesTo_link (hV : VendorReturns V) (packet : List UInt8) (r : Res (Nb (EventLinkError E V.VErr)) V.Ev) :
    DecodesTo c V id .ble packet r ↔ r = linkResult (Event.new c V packet) := by
  constructor
  · rintro (h | h | h)
    · rw [(C09_sound_and_complete c V _ _).mpr h]; rfl
    · rw [(C63_first_fault c V hV _ _).mpr h]; rfl
    · rw [(C13_panics_iff c V hV _).mpr h]; rfl
  · rintro rfl
    cases h : Event.new c V packet with
    | ok e => exact .event ((C09_sound_and_complete c V _ _).mp h)
    | err e => exact .fault ((C63_first_fault c V hV _ _).mp h)
    | panic => exact .panics ((C13_panics_iff c V hV _).mp h)

/-- **C72** (`uart`). Whatever the controller does, the transcript of `read` and its result are a run. -/
theorem C72_uart (hV : VendorReturns V) (k : Controller σ E) (s : σ) : ∃ r s' log,
    Uart.read c V (transcribing k) (s, []) = (r, (s', log)) ∧ Uart.read c V k s = (r, s') ∧
    UartRun c V log r := by
  have hp (n : Nat) (s : σ) (log : List (Answered E)) : (transcribing k).peek n (s, log) =
      ((k.peek n s).1, ((k.peek n s).2, log ++ [.peek n (k.peek n s).1])) := rfl
  have hr (n : Nat) (s : σ) (log : List (Answered E)) : (transcribing k).readInto n (s, log) =
      ((k.readInto n s).1, ((k.readInto n s).2, log ++ [.readInto n (answerBytes (k.readInto n s).1)])) := rfl
  rw [uartRead_eq, uartRead_eq, hp]
  rcases h0 : k.peek 0 s with ⟨r0, s₁⟩
  cases r0 with
  | panic => exact ⟨_, _, _, rfl, rfl, .noType .panicked⟩
  | err e => exact ⟨_, _, _, rfl, rfl, .noType (stops_uart e)⟩
  | ok x =>
    simp only
    by_cases hx : x = 0x04
    · rw [if_pos hx, if_pos hx, hp]
      subst hx
      rcases h2 : k.peek 2 s₁ with ⟨r2, s₂⟩
      cases r2 with
      | panic => exact ⟨_, _, _, rfl, rfl, .noLength .panicked⟩
      | err e => exact ⟨_, _, _, rfl, rfl, .noLength (stops_uart e)⟩
      | ok l =>
        simp only
        rw [hr]
        rcases h3 : k.readInto (3 + l.toNat) s₂ with ⟨r3, s₃⟩
        cases r3 with
        | panic => exact ⟨_, _, _, rfl, rfl, .noPacket .panicked⟩
        | err e => exact ⟨_, _, _, rfl, rfl, .noPacket (stops_uart e)⟩
        | ok got => exact ⟨_, _, _, rfl, rfl, .packet got.len ((decodesTo_uart hV _ _).mpr rfl)⟩
    · rw [if_neg hx, if_neg hx]
      exact ⟨_, _, _, rfl, rfl, .badType hx⟩

/-- The conversation that reads a Hardware Error event. -/
example : (Uart.read ⟨false, false⟩ demoVendor (transcribing fifo) (([0x04, 0x10, 0x01, 0x2A], 0), [])).2.2 =
    [.peek 0 (.ok 0x04), .peek 2 (.ok 1), .readInto 4 (.ok [0x04, 0x10, 0x01, 0x2A])] := by
  rw [uartRead_eq]; rfl

/-- **C72** (`event_link`). Whatever the controller does, the transcript of `read` and its result are a run. -/
theorem C72_event_link (hV : VendorReturns V) (k : Controller σ E) (s : σ) : ∃ r s' log,
    EventLink.read c V (transcribing k) (s, []) = (r, (s', log)) ∧ EventLink.read c V k s = (r, s') ∧
    LinkRun c V log r := by
  have hp (n : Nat) (s : σ) (log : List (Answered E)) : (transcribing k).peek n (s, log) =
      ((k.peek n s).1, ((k.peek n s).2, log ++ [.peek n (k.peek n s).1])) := rfl
  have hr (n : Nat) (s : σ) (log : List (Answered E)) : (transcribing k).readInto n (s, log) =
      ((k.readInto n s).1, ((k.readInto n s).2, log ++ [.readInto n (answerBytes (k.readInto n s).1)])) := rfl
  rw [linkRead_eq, linkRead_eq, hp]
  rcases h2 : k.peek 1 s with ⟨r2, s₂⟩
  cases r2 with
  | panic => exact ⟨_, _, _, rfl, rfl, .noLength .panicked⟩
  | err e => exact ⟨_, _, _, rfl, rfl, .noLength (stops_link e)⟩
  | ok l =>
    simp only
    rw [hr]
    rcases h3 : k.readInto (2 + l.toNat) s₂ with ⟨r3, s₃⟩
    cases r3 with
    | panic => exact ⟨_, _, _, rfl, rfl, .noPacket .panicked⟩
    | err e => exact ⟨_, _, _, rfl, rfl, .noPacket (stops_link e)⟩
    | ok got => exact ⟨_, _, _, rfl, rfl, .packet got.len ((decodesTo_link hV _ _).mpr rfl)⟩

/-- The conversation that reads a Hardware Error event. -/
example : (EventLink.read ⟨false, false⟩ demoVendor (transcribing fifo) (([0x10, 0x01, 0x2A], 0), [])).2.2 =
    [.peek 1 (.ok 1), .readInto 3 (.ok [0x10, 0x01, 0x2A])] := by
  rw [linkRead_eq]; rfl

theorem replay_peek (n : Nat) (a : Res (Nb E) UInt8) (rest : List (Answered E)) :
    replaying.peek n (.peek n a :: rest) = (a, rest) := by simp [replaying]

theorem replay_readInto_err (n : Nat) (e : Nb E) (rest : List (Answered E)) :
    replaying.readInto n (.readInto n (.err e) :: rest) = (.err e, rest) := by simp [replaying]

theorem replay_readInto_panic (n : Nat) (rest : List (Answered E)) :
    replaying.readInto n (.readInto n .panic :: rest) = (.panic, rest) := by simp [replaying]

theorem replay_readInto_ok (n : Nat) (got : List UInt8) (h : got.length = n) (rest : List (Answered E)) :
    replaying.readInto n (.readInto n (.ok got) :: rest) = (.ok ⟨got, h⟩, rest) := by simp [replaying, h]

/-- **C72** (`uart`). Every run happens: given the answers of the transcript, `read` makes exactly the calls
of the transcript and returns the result. So the transcript determines the result. -/
theorem C72_uart_every (hV : VendorReturns V) (log : List (Answered E))
    (r : Res (Nb (UartError E V.VErr)) (UartPacket V)) (h : UartRun c V log r) :
    Uart.read c V replaying log = (r, []) := by
  rw [uartRead_eq]
  cases h with
  | noType hs => rw [replay_peek]; cases hs <;> rfl
  | badType hb => rw [replay_peek]; simp only; rw [if_neg hb]
  | noLength hs => rw [replay_peek]; simp only; rw [if_pos trivial, replay_peek]; cases hs <;> rfl
  | noPacket hs =>
    rw [replay_peek]; simp only; rw [if_pos trivial, replay_peek]; simp only
    cases hs
    · rw [replay_readInto_err]; rfl
    · rw [replay_readInto_err]; rfl
    · rw [replay_readInto_panic]
  | packet hl hd =>
    rw [replay_peek]; simp only; rw [if_pos trivial, replay_peek]; simp only
    rw [replay_readInto_ok _ _ hl]
    simp only
    rw [← (decodesTo_uart hV _ _).mp hd]

/-- A run: the bytes that arrive are not those that were peeked. -/
example : UartRun (E := Unit) ⟨false, false⟩ demoVendor
    [.peek 0 (.ok 0x04), .peek 2 (.ok 1), .readInto 4 (.ok [0x04, 0x10, 0x02, 0x2A])]
    (.err (.other (.ble (.badLength 3 4)))) :=
  .packet rfl (.fault (.inl ⟨3, 4, rfl, .framing (by decide)⟩))

/-- **C72** (`event_link`). Every run happens. -/
theorem C72_event_link_every (hV : VendorReturns V) (log : List (Answered E))
    (r : Res (Nb (EventLinkError E V.VErr)) V.Ev) (h : LinkRun c V log r) :
    EventLink.read c V replaying log = (r, []) := by
  rw [linkRead_eq]
  cases h with
  | noLength hs => rw [replay_peek]; cases hs <;> rfl
  | noPacket hs =>
    rw [replay_peek]; simp only
    cases hs
    · rw [replay_readInto_err]; rfl
    · rw [replay_readInto_err]; rfl
    · rw [replay_readInto_panic]
  | packet hl hd =>
    rw [replay_peek]; simp only
    rw [replay_readInto_ok _ _ hl]
    simp only
    rw [← (decodesTo_link hV _ _).mp hd]

/-- A run: the controller fails when the packet is read. -/
example : LinkRun (E := Nat) ⟨false, false⟩ demoVendor
    [.peek 1 (.ok 7), .readInto 9 (.err (.other 3))] (.err (.other (.comm 3))) :=
  .noPacket (.failed 3)

theorem stops_not_ok {X α β : Type} {comm : E → X} {a : Res (Nb E) α} {r : Res (Nb X) β} (h : Stops comm a r) (x : α) :
    a ≠ .ok x := by cases h <;> simp

theorem same_last {x y : Answered E} (h : x.call = y.call) : SameUntilAnswer [x] [y] := by
  by_cases hxy : x = y
  · exact .inl (by rw [hxy])
  · exact .inr ⟨[], x, y, [], [], rfl, rfl, h, hxy⟩

theorem same_diff {x y : Answered E} {l l' : List (Answered E)} (h : x.call = y.call) (hxy : x ≠ y) :
    SameUntilAnswer (x :: l) (y :: l') := .inr ⟨[], x, y, l, l', rfl, rfl, h, hxy⟩

theorem same_cons {x : Answered E} {l l' : List (Answered E)} (h : SameUntilAnswer l l') :
    SameUntilAnswer (x :: l) (x :: l') := by
  rcases h with rfl | ⟨b, y, z, t, t', rfl, rfl, hc, hn⟩
  · exact .inl rfl
  · exact .inr ⟨x :: b, y, z, t, t', rfl, rfl, hc, hn⟩

theorem same_lengths {x : Nat} {l l' : UInt8} {a a' : Res (Nb E) (List UInt8)} :
    SameUntilAnswer (E := E) [.peek x (.ok l), .readInto (x + 1 + l.toNat) a]
      [.peek x (.ok l'), .readInto (x + 1 + l'.toNat) a'] := by
  by_cases h : l = l'
  · subst h; exact same_cons (same_last rfl)
  · exact same_diff rfl (by simpa using h)

/-- **C72** (`uart`). The next call depends on the answers so far and on nothing else: two runs, of any
controllers, are the same up to a call that is answered differently. -/
theorem C72_uart_next_call (log log' : List (Answered E))
    (r r' : Res (Nb (UartError E V.VErr)) (UartPacket V)) (h : UartRun c V log r) (h' : UartRun c V log' r') :
    SameUntilAnswer log log' := by
  cases h <;> cases h' <;> first
    | exact same_last rfl
    | exact same_cons (same_last rfl)
    | exact same_cons same_lengths
    | exact same_diff rfl (by simpa using stops_not_ok ‹_› _)
    | exact same_diff rfl (by simpa using Ne.symm (stops_not_ok ‹_› _))
    | exact same_diff rfl (by simpa using ‹_ ≠ (4 : UInt8)›)
    | exact same_diff rfl (by simpa using Ne.symm ‹_ ≠ (4 : UInt8)›)
    | exact same_cons (same_diff rfl (by simpa using stops_not_ok ‹_› _))
    | exact same_cons (same_diff rfl (by simpa using Ne.symm (stops_not_ok ‹_› _)))

/-- Two runs that part at the second call. -/
example : UartRun (E := Nat) ⟨false, false⟩ demoVendor [.peek 0 (.ok 0x04), .peek 2 (.err .wouldBlock)] (.err .wouldBlock) ∧
    UartRun (E := Nat) ⟨false, false⟩ demoVendor
      [.peek 0 (.ok 0x04), .peek 2 (.ok 1), .readInto 4 .panic] .panic :=
  ⟨.noLength .wouldBlock, .noPacket .panicked⟩

/-- **C72** (`event_link`). The next call depends on the answers so far and on nothing else. -/
theorem C72_event_link_next_call (log log' : List (Answered E))
    (r r' : Res (Nb (EventLinkError E V.VErr)) V.Ev) (h : LinkRun c V log r) (h' : LinkRun c V log' r') :
    SameUntilAnswer log log' := by
  cases h <;> cases h' <;> first
    | exact same_last rfl
    | exact same_lengths
    | exact same_diff rfl (by simpa using stops_not_ok ‹_› _)
    | exact same_diff rfl (by simpa using Ne.symm (stops_not_ok ‹_› _))

/-- Two runs that part at the first call. -/
example : LinkRun (E := Nat) ⟨false, false⟩ demoVendor [.peek 1 (.ok 2), .readInto 4 (.err .wouldBlock)] (.err .wouldBlock) ∧
    LinkRun (E := Nat) ⟨false, false⟩ demoVendor [.peek 1 (.ok 1), .readInto 3 .panic] .panic :=
  ⟨.noPacket .wouldBlock, .noPacket .panicked⟩

end Bt
