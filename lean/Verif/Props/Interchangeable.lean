import Verif.Spec.Interchangeable
import Verif.Spec.Transcripts
import Verif.Spec.Demo
import Verif.Lemmas.Play
import Verif.Lemmas.Streams
import Verif.Lemmas.Exec
import Verif.Props.Commands

/-! # C98: controllers that agree on a few calls can replace one another -/

namespace Bt

open Spec

variable {σ σ' E E' VS : Type} {c : Cfg} {V : Vendor} {R : σ → σ' → Prop} {f : E → E'}
  {k : Controller σ E} {k' : Controller σ' E'}

/-- **C98** (`uart`). -/
theorem C98_uart (hk : Interchangeable (Called .uart) R f k k') {s : σ} {s' : σ'} (h : R s s') :
    (Uart.read c V k' s').1 = (Uart.read c V k s).1.mapErr (renamed (renamedUart f)) ∧
      R (Uart.read c V k s).2 (Uart.read c V k' s').2 := by
  have rw_err (e : Nb E) : Uart.rewrapError (VE := V.VErr) (renamed f e) =
      renamed (renamedUart f) (Uart.rewrapError e) := by cases e <;> rfl
  rw [uartRead_eq, uartRead_eq]
  have h0 := hk.peek 0 s s' (Or.inl rfl) h
  rcases e0 : k.peek 0 s with ⟨r0, s₁⟩
  rcases e0' : k'.peek 0 s' with ⟨r0', s₁'⟩
  rw [e0, e0'] at h0
  obtain ⟨rfl, h1⟩ := h0
  cases r0 with
  | panic => exact ⟨rfl, h1⟩
  | err e => exact ⟨congrArg _ (rw_err e), h1⟩
  | ok x =>
    simp only [Res.mapErr_ok]
    by_cases hx : x = 0x04
    · rw [if_pos hx, if_pos hx]
      have h2 := hk.peek 2 s₁ s₁' (Or.inr rfl) h1
      rcases e2 : k.peek 2 s₁ with ⟨r2, s₂⟩
      rcases e2' : k'.peek 2 s₁' with ⟨r2', s₂'⟩
      rw [e2, e2'] at h2
      obtain ⟨rfl, h2⟩ := h2
      cases r2 with
      | panic => exact ⟨rfl, h2⟩
      | err e => exact ⟨congrArg _ (rw_err e), h2⟩
      | ok l =>
        simp only [Res.mapErr_ok]
        have hl := l.toNat_lt
        have h3 := hk.readInto (3 + l.toNat) s₂ s₂' ⟨by omega, by omega⟩ h2
        rcases e3 : k.readInto (3 + l.toNat) s₂ with ⟨r3, s₃⟩
        rcases e3' : k'.readInto (3 + l.toNat) s₂' with ⟨r3', s₃'⟩
        rw [e3, e3'] at h3
        obtain ⟨rfl, h3⟩ := h3
        cases r3 with
        | panic => exact ⟨rfl, h3⟩
        | err e => exact ⟨congrArg _ (rw_err e), h3⟩
        | ok got =>
          refine ⟨?_, h3⟩
          simp only [Res.mapErr_ok]
          cases Event.new c V (got.val.drop 1) <;> rfl
    · rw [if_neg hx, if_neg hx]
      exact ⟨rfl, h1⟩

/-- **C98** (`event_link`). -/
theorem C98_event_link (hk : Interchangeable (Called .cmdLink) R f k k') {s : σ} {s' : σ'} (h : R s s') :
    (EventLink.read c V k' s').1 = (EventLink.read c V k s).1.mapErr (renamed (renamedLink f)) ∧
      R (EventLink.read c V k s).2 (EventLink.read c V k' s').2 := by
  have rw_err (e : Nb E) : EventLink.rewrapError (VE := V.VErr) (renamed f e) =
      renamed (renamedLink f) (EventLink.rewrapError e) := by cases e <;> rfl
  rw [linkRead_eq, linkRead_eq]
  have h2 := hk.peek 1 s s' rfl h
  rcases e2 : k.peek 1 s with ⟨r2, s₂⟩
  rcases e2' : k'.peek 1 s' with ⟨r2', s₂'⟩
  rw [e2, e2'] at h2
  obtain ⟨rfl, h2⟩ := h2
  cases r2 with
  | panic => exact ⟨rfl, h2⟩
  | err e => exact ⟨congrArg _ (rw_err e), h2⟩
  | ok l =>
    simp only [Res.mapErr_ok]
    have hl := l.toNat_lt
    have h3 := hk.readInto (2 + l.toNat) s₂ s₂' ⟨by omega, by omega⟩ h2
    rcases e3 : k.readInto (2 + l.toNat) s₂ with ⟨r3, s₃⟩
    rcases e3' : k'.readInto (2 + l.toNat) s₂' with ⟨r3', s₃'⟩
    rw [e3, e3'] at h3
    obtain ⟨rfl, h3⟩ := h3
    cases r3 with
    | panic => exact ⟨rfl, h3⟩
    | err e => exact ⟨congrArg _ (rw_err e), h3⟩
    | ok got =>
      refine ⟨?_, h3⟩
      simp only [Res.mapErr_ok]
      cases Event.new c V got.val <;> rfl

theorem cmdReject_renamed (f : E → E') (cmd : Command VS) :
    cmdReject (E := E') cmd = (cmdReject (E := E) cmd).map (renamedHost f) := by
  cases cmd <;> simp only [cmdReject] <;> repeat' (first | rfl | split)

/-- **C98** (commands). -/
theorem C98_command (l : Link) (hk : Interchangeable (Called l) R f k k') (vinto : VS → UInt8) (cmd : Command VS)
    (hc : cmd.Constructible c) {s : σ} {s' : σ'} (h : R s s') :
    (cmd.exec (linkHeader l) k' vinto s').1 =
        (cmd.exec (linkHeader l) k vinto s).1.mapErr (renamed (renamedHost f)) ∧
      R (cmd.exec (linkHeader l) k vinto s).2 (cmd.exec (linkHeader l) k' vinto s').2 := by
  rw [exec_eq c l k vinto cmd hc, exec_eq c l k' vinto cmd hc, cmdReject_renamed f cmd]
  cases ha : cmdReject (E := E) cmd with
  | some e => exact ⟨rfl, h⟩
  | none =>
    have hlen := cmdParams_length cmd ha
    have hw := hk.write (headerBytes l (cmdOpcode cmd) (cmdParams cmd).length) (cmdParams cmd) s s'
      (by cases l
          · exact ⟨hlen, _, _, rfl⟩
          · exact ⟨hlen, _, _, rfl⟩) h
    refine ⟨?_, hw.2⟩
    show (k'.write _ _ s').1.mapErr commError = ((k.write _ _ s).1.mapErr commError).mapErr _
    rw [hw.1]
    cases (k.write (headerBytes l (cmdOpcode cmd) (cmdParams cmd).length) (cmdParams cmd) s).1 with
    | ok a => rfl
    | panic => rfl
    | err e => cases e <;> rfl

/-- **C98.** An application over a UART, whatever it does and whatever happens to the controller meanwhile, is told
the same with either of two controllers that agree on the calls of `Called`, and leaves them in related states. -/
theorem C98_uart_application (hk : Interchangeable (Called .uart) R f k k') (vinto : VS → UInt8)
    {app : Nat → List (Act VS E' (Res (Nb (UartError E' V.VErr)) (UartPacket V))) → Move VS}
    (hc : ∀ n past cmd, app n past = .command cmd → cmd.Constructible c)
    {outside : Nat → σ → σ} {outside' : Nat → σ' → σ'} (ho : ∀ n s s', R s s' → R (outside n s) (outside' n s'))
    {s : σ} {s' : σ'} (h : R s s') (n : Nat) :
    let run' := play (Uart.read c V k') (Command.exec uartHeader k' vinto) app outside' n s'
    let run := play (Uart.read c V k) (Command.exec uartHeader k vinto)
      (fun n past => app n (past.map (renamedAct f (renamedUart f)))) outside n s
    run'.1 = run.1.map (renamedAct f (renamedUart f)) ∧ R run.2 run'.2 :=
  play_related (fun _ _ h => ⟨congrArg _ (C98_uart hk h).1.symm, (C98_uart hk h).2⟩)
    (fun n past cmd ha _ _ h => ⟨congrArg _ (C98_command .uart hk vinto cmd (hc n past cmd ha) h).1.symm,
      (C98_command .uart hk vinto cmd (hc n past cmd ha) h).2⟩) ho h n

/-- **C98.** The same over the event link and the command link. -/
theorem C98_link_application (hk : Interchangeable (Called .cmdLink) R f k k') (vinto : VS → UInt8)
    {app : Nat → List (Act VS E' (Res (Nb (EventLinkError E' V.VErr)) V.Ev)) → Move VS}
    (hc : ∀ n past cmd, app n past = .command cmd → cmd.Constructible c)
    {outside : Nat → σ → σ} {outside' : Nat → σ' → σ'} (ho : ∀ n s s', R s s' → R (outside n s) (outside' n s'))
    {s : σ} {s' : σ'} (h : R s s') (n : Nat) :
    let run' := play (EventLink.read c V k') (Command.exec cmdLinkHeader k' vinto) app outside' n s'
    let run := play (EventLink.read c V k) (Command.exec cmdLinkHeader k vinto)
      (fun n past => app n (past.map (renamedAct f (renamedLink f)))) outside n s
    run'.1 = run.1.map (renamedAct f (renamedLink f)) ∧ R run.2 run'.2 :=
  play_related (fun _ _ h => ⟨congrArg _ (C98_event_link hk h).1.symm, (C98_event_link hk h).2⟩)
    (fun n past cmd ha _ _ h => ⟨congrArg _ (C98_command .cmdLink hk vinto cmd (hc n past cmd ha) h).1.symm,
      (C98_command .cmdLink hk vinto cmd (hc n past cmd ha) h).2⟩) ho h n

/-! ## The calls that are made -/

theorem mapErr_renamed_id {α : Type} (r : Res (Nb E) α) : r.mapErr (renamed id) = r := by
  cases r with
  | ok a => rfl
  | panic => rfl
  | err e => cases e <;> rfl

/-- A controller and the same controller with a log of its calls. -/
theorem recording_interchangeable (calls : CtlOp → Prop) (k : Controller σ E) :
    Interchangeable calls (fun s (s' : σ × List CtlOp) => s'.1 = s ∧ ∀ op ∈ s'.2, calls op) id k (recording k) := by
  have step {x : σ × List CtlOp} {op} (h : ∀ op ∈ x.2, calls op) (ho : calls op) :
      ∀ o ∈ x.2 ++ [op], calls o := by
    intro o hm
    rcases List.mem_append.1 hm with hm | hm
    · exact h o hm
    · rw [List.mem_singleton.1 hm]; exact ho
  constructor
  · rintro h p s s' ho ⟨rfl, hl⟩; exact ⟨(mapErr_renamed_id _).symm, rfl, step hl ho⟩
  · rintro n s s' ho ⟨rfl, hl⟩; exact ⟨(mapErr_renamed_id _).symm, rfl, step hl ho⟩
  · rintro n s s' ho ⟨rfl, hl⟩; exact ⟨(mapErr_renamed_id _).symm, rfl, step hl ho⟩

/-- **C98.** Whatever an application does over a UART, no call is made on the controller that is not in `Called`. -/
theorem C98_uart_calls (k : Controller σ E) (vinto : VS → UInt8)
    {app : Nat → List (Act VS E (Res (Nb (UartError E V.VErr)) (UartPacket V))) → Move VS}
    (hc : ∀ n past cmd, app n past = .command cmd → cmd.Constructible c) (outside : Nat → σ → σ) (s : σ) (n : Nat) :
    ∀ op ∈ (play (Uart.read c V (recording k)) (Command.exec uartHeader (recording k) vinto) app
      (fun n s => (outside n s.1, s.2)) n (s, [])).2.2, Called .uart op :=
  (C98_uart_application (recording_interchangeable (Called .uart) k) vinto hc (outside := outside)
    (outside' := fun n s => (outside n s.1, s.2))
    (fun n _ _ h => ⟨congrArg _ h.1, h.2⟩) (s := s) (s' := (s, [])) ⟨rfl, by simp⟩ n).2.2

/-- **C98.** The same over the event link and the command link. -/
theorem C98_link_calls (k : Controller σ E) (vinto : VS → UInt8)
    {app : Nat → List (Act VS E (Res (Nb (EventLinkError E V.VErr)) V.Ev)) → Move VS}
    (hc : ∀ n past cmd, app n past = .command cmd → cmd.Constructible c) (outside : Nat → σ → σ) (s : σ) (n : Nat) :
    ∀ op ∈ (play (EventLink.read c V (recording k)) (Command.exec cmdLinkHeader (recording k) vinto) app
      (fun n s => (outside n s.1, s.2)) n (s, [])).2.2, Called .cmdLink op :=
  (C98_link_application (recording_interchangeable (Called .cmdLink) k) vinto hc (outside := outside)
    (outside' := fun n s => (outside n s.1, s.2))
    (fun n _ _ h => ⟨congrArg _ h.1, h.2⟩) (s := s) (s' := (s, [])) ⟨rfl, by simp⟩ n).2.2

/-- **C98.** Each call of `Called` for reading is made. -/
theorem C98_reading_calls_made (l : UInt8) :
    (Uart.read c V (recording (announcing l)) ((), [])).2.2 = [.peek 0, .peek 2, .readInto (3 + l.toNat)] ∧
    (EventLink.read c V (recording (announcing l)) ((), [])).2.2 = [.peek 1, .readInto (2 + l.toNat)] := by
  rw [uartRead_eq, linkRead_eq]
  exact ⟨rfl, rfl⟩

/-! ## Examples -/

/-- A controller that fails with a string at every call that is not in `Called .uart` for reading. -/
def strict : Controller Fifo String where
  write h p := fun s => ((fifo.write h p s).1.mapErr (renamed fun _ => "bus"), (fifo.write h p s).2)
  peek n := fun s =>
    if n = 0 ∨ n = 2 then ((fifo.peek n s).1.mapErr (renamed fun _ => "bus"), (fifo.peek n s).2)
    else (.err (.other "peek"), s)
  readInto n := fun s =>
    if 3 ≤ n then ((fifo.readInto n s).1.mapErr (renamed fun _ => "bus"), (fifo.readInto n s).2)
    else (.err (.other "short"), s)

/-- `strict` can replace the queue, though it does not give the same answer to every call. -/
theorem strict_interchangeable : Interchangeable (Called .uart) Eq (fun _ : Unit => "bus") fifo strict where
  write h p s s' _ e := by subst e; exact ⟨rfl, rfl⟩
  peek n s s' ho e := by
    subst e
    have ho : n = 0 ∨ n = 2 := ho
    simp only [strict]
    rw [if_pos ho]
    exact ⟨rfl, rfl⟩
  readInto n s s' ho e := by
    subst e
    simp only [strict]
    rw [if_pos ho.1]
    exact ⟨rfl, rfl⟩

example : (strict.peek 1 ([4, 5], 0)).1 = .err (.other "peek") ∧ (fifo.peek 1 ([4, 5], 0)).1 = .ok 5 := ⟨rfl, rfl⟩

/-- An application that reads until it has an event, then sends a reset. -/
def untilEvent {E : Type} : Nat → List (Act Empty E (Res (Nb (UartError E demoVendor.VErr)) (UartPacket demoVendor))) →
    Move Empty
  | _, [] => .read
  | _, as => match as.getLast? with
    | some (.read (.ok _)) => .command .reset
    | some (.read _) => .read
    | _ => .rest

example : ∀ n past cmd, untilEvent (E := String) n past = .command cmd → cmd.Constructible ⟨false, false⟩ := by
  intro n past cmd h
  unfold untilEvent at h
  split at h
  · cases h
  · split at h
    · cases h; trivial
    · cases h
    · cases h

/-- A read that blocks, one that succeeds after four bytes have arrived, and the command. -/
example : ((play (Uart.read ⟨false, false⟩ demoVendor strict) (Command.exec uartHeader strict Empty.elim) untilEvent
    (fun n s => if n = 1 then (s.1 ++ [0x04, 0x10, 1, 7], s.2) else s) 6 ([], 0)).1.map fun
      | .read (.ok _) => 0
      | .read (.err _) => 1
      | .command _ (.ok ()) => 2
      | _ => 3) = [1, 0, 2] := by
  decide +kernel

end Bt
