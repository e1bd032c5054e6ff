import Verif.Lemmas.Streams
import Verif.Props.Events
import Verif.Spec.Controllers
import Verif.Spec.Demo

/-! # C06, C07: reading from an arbitrary controller -/

namespace Bt

open Spec

variable {σ E : Type} {c : Cfg} {V : Vendor} (k : Controller σ E)

/-- **C06** (`uart`). The calls made by `read` all succeed but perhaps the last one. `read` returns
`WouldBlock` or `Comm e` exactly if the last call failed so, and an event only if no call failed. -/
theorem C06_uart (s : σ) : ∃ r s' log last,
    Uart.read c V (observing k) (s, []) = (r, (s', log ++ [last])) ∧ Uart.read c V k s = (r, s') ∧
    (∀ x ∈ log, x = .done) ∧
    (r = .err .wouldBlock ↔ last = .failed .wouldBlock) ∧
    (∀ e, r = .err (.other (.comm e)) ↔ last = .failed (.other e)) ∧
    (last = .panicked → r = .panic) ∧
    (∀ p, r = .ok p → last = .done) := by
  have hp (n : Nat) (s : σ) (log : List (CallEnd E)) : (observing k).peek n (s, log) =
      ((k.peek n s).1, ((k.peek n s).2, log ++ [endOf (k.peek n s).1])) := rfl
  have hr (n : Nat) (s : σ) (log : List (CallEnd E)) : (observing k).readInto n (s, log) =
      ((k.readInto n s).1, ((k.readInto n s).2, log ++ [endOf (k.readInto n s).1])) := rfl
  rw [uartRead_eq, uartRead_eq, hp]
  rcases h0 : k.peek 0 s with ⟨r0, s₁⟩
  cases r0 with
  | panic => exact ⟨_, _, [], _, rfl, rfl, by simp, by simp [endOf], by simp [endOf], by simp, by simp⟩
  | err e =>
    refine ⟨_, _, [], _, rfl, rfl, by simp, ?_, ?_, by simp [endOf], by simp⟩ <;>
      cases e <;> simp [endOf, Uart.rewrapError]
  | ok x =>
    simp only
    by_cases hx : x = 0x04
    · rw [if_pos hx, if_pos hx, hp]
      rcases h2 : k.peek 2 s₁ with ⟨r2, s₂⟩
      cases r2 with
      | panic =>
        exact ⟨_, _, [.done], _, rfl, rfl, by simp, by simp [endOf], by simp [endOf], by simp, by simp⟩
      | err e =>
        refine ⟨_, _, [.done], _, rfl, rfl, by simp, ?_, ?_, by simp [endOf], by simp⟩ <;>
          cases e <;> simp [endOf, Uart.rewrapError]
      | ok l =>
        simp only
        rw [hr]
        rcases h3 : k.readInto (3 + l.toNat) s₂ with ⟨r3, s₃⟩
        cases r3 with
        | panic =>
          exact ⟨_, _, [.done, .done], _, rfl, rfl, by simp, by simp [endOf], by simp [endOf], by simp, by simp⟩
        | err e =>
          refine ⟨_, _, [.done, .done], _, rfl, rfl, by simp, ?_, ?_, by simp [endOf], by simp⟩ <;>
            cases e <;> simp [endOf, Uart.rewrapError]
        | ok got =>
          refine ⟨_, _, [.done, .done], _, rfl, rfl, by simp, ?_, ?_, by simp [endOf], by simp [endOf]⟩ <;>
            cases Event.new c V (got.val.drop 1) <;> simp [endOf, uartResult]
    · rw [if_neg hx, if_neg hx]
      exact ⟨_, _, [], _, rfl, rfl, by simp, by simp [endOf], by simp [endOf], by simp [endOf], by simp⟩

/-- An indicator has arrived, the length has not: the second call would block. -/
example : (Uart.read ⟨false, false⟩ demoVendor (observing fifo) (([0x04, 0x10], 0), [])).1 = .err .wouldBlock ∧
    (Uart.read ⟨false, false⟩ demoVendor (observing fifo) (([0x04, 0x10], 0), [])).2.2 =
      [.done, .failed .wouldBlock] := ⟨rfl, rfl⟩

/-- **C06** (`event_link`). -/
theorem C06_event_link (s : σ) : ∃ r s' log last,
    EventLink.read c V (observing k) (s, []) = (r, (s', log ++ [last])) ∧ EventLink.read c V k s = (r, s') ∧
    (∀ x ∈ log, x = .done) ∧
    (r = .err .wouldBlock ↔ last = .failed .wouldBlock) ∧
    (∀ e, r = .err (.other (.comm e)) ↔ last = .failed (.other e)) ∧
    (last = .panicked → r = .panic) ∧
    (∀ p, r = .ok p → last = .done) := by
  have hp (n : Nat) (s : σ) (log : List (CallEnd E)) : (observing k).peek n (s, log) =
      ((k.peek n s).1, ((k.peek n s).2, log ++ [endOf (k.peek n s).1])) := rfl
  have hr (n : Nat) (s : σ) (log : List (CallEnd E)) : (observing k).readInto n (s, log) =
      ((k.readInto n s).1, ((k.readInto n s).2, log ++ [endOf (k.readInto n s).1])) := rfl
  rw [linkRead_eq, linkRead_eq, hp]
  rcases h2 : k.peek 1 s with ⟨r2, s₂⟩
  cases r2 with
  | panic => exact ⟨_, _, [], _, rfl, rfl, by simp, by simp [endOf], by simp [endOf], by simp, by simp⟩
  | err e =>
    refine ⟨_, _, [], _, rfl, rfl, by simp, ?_, ?_, by simp [endOf], by simp⟩ <;>
      cases e <;> simp [endOf, EventLink.rewrapError]
  | ok l =>
    simp only
    rw [hr]
    rcases h3 : k.readInto (2 + l.toNat) s₂ with ⟨r3, s₃⟩
    cases r3 with
    | panic => exact ⟨_, _, [.done], _, rfl, rfl, by simp, by simp [endOf], by simp [endOf], by simp, by simp⟩
    | err e =>
      refine ⟨_, _, [.done], _, rfl, rfl, by simp, ?_, ?_, by simp [endOf], by simp⟩ <;>
        cases e <;> simp [endOf, EventLink.rewrapError]
    | ok got =>
      refine ⟨_, _, [.done], _, rfl, rfl, by simp, ?_, ?_, by simp [endOf], by simp [endOf]⟩ <;>
        cases Event.new c V got.val <;> simp [endOf, linkResult]

/-- An event that arrives while it is read. -/
example : (EventLink.read ⟨false, false⟩ demoVendor (observing slow) (⟨([0x10], 0), [0x01, 0x2A], 0⟩, [])).1 =
      .ok (.hardwareError ⟨0x2A⟩) ∧
    (EventLink.read ⟨false, false⟩ demoVendor (observing slow) (⟨([0x10], 0), [0x01, 0x2A], 0⟩, [])).2.2 =
      [.done, .done] := by
  rw [linkRead_eq]
  exact ⟨rfl, rfl⟩

/-- A communication error at the second call. -/
example : (Uart.read ⟨false, false⟩ demoVendor (observing slow) (⟨([0x04], 0), [0x10], 2⟩, [])).1 =
      .err (.other (.comm ())) ∧
    (Uart.read ⟨false, false⟩ demoVendor (observing slow) (⟨([0x04], 0), [0x10], 2⟩, [])).2.2 =
      [.done, .failed (.other ())] := ⟨rfl, rfl⟩

/-- **C07** (`uart`). Whatever the controller does, `read` never indexes out of its buffer: it panics only
if the controller itself panics, or if decoding the at most 257 bytes received after the indicator
panics. -/
theorem C07_uart (s s' : σ) (h : Uart.read c V k s = (.panic, s')) :
    .panicked ∈ (Uart.read c V (observing k) (s, [])).2.2 ∨
    ∃ s₁ s₂ l got, k.peek 0 s = (.ok 0x04, s₁) ∧ k.peek 2 s₁ = (.ok l, s₂) ∧ 3 + l.toNat ≤ 258 ∧
      k.readInto (3 + l.toNat) s₂ = (.ok got, s') ∧ Event.new c V (got.val.drop 1) = .panic := by
  have hp (n : Nat) (s : σ) (log : List (CallEnd E)) : (observing k).peek n (s, log) =
      ((k.peek n s).1, ((k.peek n s).2, log ++ [endOf (k.peek n s).1])) := rfl
  have hr (n : Nat) (s : σ) (log : List (CallEnd E)) : (observing k).readInto n (s, log) =
      ((k.readInto n s).1, ((k.readInto n s).2, log ++ [endOf (k.readInto n s).1])) := rfl
  rw [uartRead_eq c V (observing k), hp]
  rw [uartRead_eq] at h
  rcases h0 : k.peek 0 s with ⟨r0, s₁⟩
  rw [h0] at h
  cases r0 with
  | panic => exact .inl (by simp [endOf])
  | err e => cases h
  | ok x =>
    simp only at h
    by_cases hx : x = 0x04
    · rw [if_pos hx] at h
      simp only
      rw [if_pos hx, hp]
      subst hx
      rcases h2 : k.peek 2 s₁ with ⟨r2, s₂⟩
      rw [h2] at h
      cases r2 with
      | panic => exact .inl (by simp [endOf])
      | err e => cases h
      | ok l =>
        simp only at h
        rcases h3 : k.readInto (3 + l.toNat) s₂ with ⟨r3, s₃⟩
        rw [h3] at h
        cases r3 with
        | panic => exact .inl (by simp [hr, h3, endOf])
        | err e => cases h
        | ok got =>
          simp only at h
          obtain ⟨h, rfl⟩ := Prod.mk.inj h
          have hl := l.toNat_lt
          refine .inr ⟨s₁, s₂, l, got, rfl, h2, by omega, h3, ?_⟩
          cases hn : Event.new c V (got.val.drop 1) with
          | panic => rfl
          | ok e => rw [hn] at h; cases h
          | err e => rw [hn] at h; cases h
    · rw [if_neg hx] at h
      cases h

/-- A panic while decoding: the reply to a reset without a status. -/
example : ∃ s', Uart.read ⟨false, false⟩ demoVendor fifo ([0x04, 0x0E, 0x03, 0x01, 0x03, 0x0C], 0) =
    (.panic, s') :=
  ⟨_, by rw [uartRead_eq]; rfl⟩

/-- **C07** (`event_link`). -/
theorem C07_event_link (s s' : σ) (h : EventLink.read c V k s = (.panic, s')) :
    .panicked ∈ (EventLink.read c V (observing k) (s, [])).2.2 ∨
    ∃ s₁ l got, k.peek 1 s = (.ok l, s₁) ∧ 2 + l.toNat ≤ 257 ∧
      k.readInto (2 + l.toNat) s₁ = (.ok got, s') ∧ Event.new c V got.val = .panic := by
  have hp (n : Nat) (s : σ) (log : List (CallEnd E)) : (observing k).peek n (s, log) =
      ((k.peek n s).1, ((k.peek n s).2, log ++ [endOf (k.peek n s).1])) := rfl
  have hr (n : Nat) (s : σ) (log : List (CallEnd E)) : (observing k).readInto n (s, log) =
      ((k.readInto n s).1, ((k.readInto n s).2, log ++ [endOf (k.readInto n s).1])) := rfl
  rw [linkRead_eq c V (observing k), hp]
  rw [linkRead_eq] at h
  rcases h2 : k.peek 1 s with ⟨r2, s₂⟩
  rw [h2] at h
  cases r2 with
  | panic => exact .inl (by simp [endOf])
  | err e => cases h
  | ok l =>
    simp only at h
    rcases h3 : k.readInto (2 + l.toNat) s₂ with ⟨r3, s₃⟩
    rw [h3] at h
    cases r3 with
    | panic => exact .inl (by simp [hr, h3, endOf])
    | err e => cases h
    | ok got =>
      simp only at h
      obtain ⟨h, rfl⟩ := Prod.mk.inj h
      have hl := l.toNat_lt
      refine .inr ⟨s₂, l, got, rfl, by omega, h3, ?_⟩
      cases hn : Event.new c V got.val with
      | panic => rfl
      | ok e => rw [hn] at h; cases h
      | err e => rw [hn] at h; cases h

example : ∃ s', EventLink.read ⟨false, false⟩ demoVendor fifo ([0x0E, 0x03, 0x01, 0x03, 0x0C], 0) =
    (.panic, s') :=
  ⟨_, by rw [linkRead_eq]; rfl⟩

/-- **C07.** The calls made by `read`: it looks at the bytes 0 and 2 and then reads between 3 and 258 bytes,
in this order, and never writes. -/
theorem C07_uart_calls (s : σ) : ∃ r s' n, 3 ≤ n ∧ n ≤ 258 ∧
    (Uart.read c V (recording k) (s, [])).1 = r ∧ (Uart.read c V (recording k) (s, [])).2.1 = s' ∧
    Uart.read c V k s = (r, s') ∧
    (Uart.read c V (recording k) (s, [])).2.2 <+: [.peek 0, .peek 2, .readInto n] := by
  have hp (n : Nat) (s : σ) (log : List CtlOp) : (recording k).peek n (s, log) =
      ((k.peek n s).1, ((k.peek n s).2, log ++ [.peek n])) := rfl
  have hr (n : Nat) (s : σ) (log : List CtlOp) : (recording k).readInto n (s, log) =
      ((k.readInto n s).1, ((k.readInto n s).2, log ++ [.readInto n])) := rfl
  rw [uartRead_eq, uartRead_eq, hp]
  rcases h0 : k.peek 0 s with ⟨r0, s₁⟩
  cases r0 with
  | panic => exact ⟨_, _, 3, by omega, by omega, rfl, rfl, rfl, ⟨_, rfl⟩⟩
  | err e => exact ⟨_, _, 3, by omega, by omega, rfl, rfl, rfl, ⟨_, rfl⟩⟩
  | ok x =>
    simp only
    by_cases hx : x = 0x04
    · rw [if_pos hx, if_pos hx, hp]
      rcases h2 : k.peek 2 s₁ with ⟨r2, s₂⟩
      cases r2 with
      | panic => exact ⟨_, _, 3, by omega, by omega, rfl, rfl, rfl, ⟨_, rfl⟩⟩
      | err e => exact ⟨_, _, 3, by omega, by omega, rfl, rfl, rfl, ⟨_, rfl⟩⟩
      | ok l =>
        simp only
        rw [hr]
        have hl := l.toNat_lt
        rcases h3 : k.readInto (3 + l.toNat) s₂ with ⟨r3, s₃⟩
        cases r3 <;> exact ⟨_, _, 3 + l.toNat, by omega, by omega, rfl, rfl, rfl, ⟨[], rfl⟩⟩
    · rw [if_neg hx, if_neg hx]
      exact ⟨_, _, 3, by omega, by omega, rfl, rfl, rfl, ⟨_, rfl⟩⟩

/-- The calls for a packet of six bytes, and for a byte that is not the indicator. -/
example : (Uart.read ⟨false, false⟩ demoVendor (recording fifo)
      (([0x04, 0x30, 0x03, 0x00, 0x01, 0x02], 0), [])).2.2 = [.peek 0, .peek 2, .readInto 6] ∧
    (Uart.read ⟨false, false⟩ demoVendor (recording fifo) (([0x02, 0x30], 0), [])).2.2 = [.peek 0] := by
  rw [uartRead_eq, uartRead_eq]
  exact ⟨rfl, rfl⟩

/-- **C07.** The same for `event_link`: byte 1, then between 2 and 257 bytes. -/
theorem C07_event_link_calls (s : σ) : ∃ r s' n, 2 ≤ n ∧ n ≤ 257 ∧
    (EventLink.read c V (recording k) (s, [])).1 = r ∧ (EventLink.read c V (recording k) (s, [])).2.1 = s' ∧
    EventLink.read c V k s = (r, s') ∧
    (EventLink.read c V (recording k) (s, [])).2.2 <+: [.peek 1, .readInto n] := by
  have hp (n : Nat) (s : σ) (log : List CtlOp) : (recording k).peek n (s, log) =
      ((k.peek n s).1, ((k.peek n s).2, log ++ [.peek n])) := rfl
  have hr (n : Nat) (s : σ) (log : List CtlOp) : (recording k).readInto n (s, log) =
      ((k.readInto n s).1, ((k.readInto n s).2, log ++ [.readInto n])) := rfl
  rw [linkRead_eq, linkRead_eq, hp]
  rcases h2 : k.peek 1 s with ⟨r2, s₂⟩
  cases r2 with
  | panic => exact ⟨_, _, 2, by omega, by omega, rfl, rfl, rfl, ⟨_, rfl⟩⟩
  | err e => exact ⟨_, _, 2, by omega, by omega, rfl, rfl, rfl, ⟨_, rfl⟩⟩
  | ok l =>
    simp only
    rw [hr]
    have hl := l.toNat_lt
    rcases h3 : k.readInto (2 + l.toNat) s₂ with ⟨r3, s₃⟩
    cases r3 <;> exact ⟨_, _, 2 + l.toNat, by omega, by omega, rfl, rfl, rfl, ⟨[], rfl⟩⟩

example : (EventLink.read ⟨false, false⟩ demoVendor (recording fifo)
    (([0x30, 0x03, 0x00, 0x01, 0x02], 0), [])).2.2 = [.peek 1, .readInto 5] := by
  rw [linkRead_eq]
  rfl

/-- A panic while decoding: the reply to a reset without a status. -/
example : (Uart.read ⟨false, false⟩ demoVendor fifo ([0x04, 0x0E, 0x03, 0x01, 0x03, 0x0C], 0)).1 = .panic := by
  rw [uartRead_eq]
  rfl

/-- The calls for a packet of six bytes. -/
example : (Uart.read ⟨false, false⟩ demoVendor (recording fifo)
    (([0x04, 0x30, 0x03, 0x00, 0x01, 0x02], 0), [])).2.2 = [.peek 0, .peek 2, .readInto 6] := by
  rw [uartRead_eq]
  rfl

end Bt
