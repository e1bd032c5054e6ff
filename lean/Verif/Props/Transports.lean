import Verif.Spec.Transports
import Verif.Props.Sessions
import Verif.Lemmas.Play

/-! # C73: the transports carry the same commands and the same events -/

namespace Bt

open Spec

/-- **C73.** A command over a UART is the command over the command link with the indicator `0x01` in front:
with a UART in front of the command link, for every controller, every call has the same result and the same
effect over both, rejected or not. -/
theorem C73_commands {σ E VS : Type} (c : Cfg) (k : Controller σ E) (vinto : VS → UInt8) (cmd : Command VS)
    (hc : cmd.Constructible c) (s : σ) :
    cmd.exec uartHeader (behindUart k) vinto s = cmd.exec cmdLinkHeader k vinto s := by
  cases hr : cmdReject (E := E) cmd with
  | some e => exact (C40_rejected c .uart _ vinto cmd hc e hr s).trans (C40_rejected c .cmdLink k vinto cmd hc e hr s).symm
  | none =>
    exact (C39_one_framed_write c .uart (behindUart k) vinto cmd hc hr s).1.trans
      (C39_one_framed_write c .cmdLink k vinto cmd hc hr s).1.symm

/-- Reset, over a UART and over the command link. -/
example : ((.reset : Command UInt8).exec uartHeader (behindUart modem) id ⟨([], 0), []⟩).2.sent = [0x03, 0x0C, 0] ∧
    ((.reset : Command UInt8).exec cmdLinkHeader modem id ⟨([], 0), []⟩).2.sent = [0x03, 0x0C, 0] ∧
    ((.reset : Command UInt8).exec uartHeader modem id ⟨([], 0), []⟩).2.sent = [0x01, 0x03, 0x0C, 0] :=
  ⟨rfl, rfl, rfl⟩

example : (Command.reset : Command UInt8).Constructible ⟨false, false⟩ := trivial

section Events

variable {σ₁ σ₂ E₁ E₂ : Type} {c : Cfg} {V : Vendor} {k₁ : Controller σ₁ E₁} {k₂ : Controller σ₂ E₂}
  {stream₁ : σ₁ → List UInt8} {stream₂ : σ₂ → List UInt8} {taken₁ : σ₁ → Nat} {taken₂ : σ₂ → Nat}

/-- **C73.** If the same packets arrive over a UART and over an event link (followed at most by the beginning of
a packet), then whatever the controllers do and whenever the host reads, what is reported over the one is the
beginning of what is reported over the other or the other way round; and once the packets have been read from
both, both have reported the same. -/
theorem C73_events (hd₁ : Delivers k₁ stream₁ taken₁) (hd₂ : Delivers k₂ stream₂ taken₂)
    {s₁ s₁' : σ₁} {s₂ s₂' : σ₂}
    {rs₁ : List (Res (Nb (UartError E₁ V.VErr)) (UartPacket V))}
    {rs₂ : List (Res (Nb (EventLinkError E₂ V.VErr)) V.Ev)}
    (h₁ : History stream₁ taken₁ (Uart.read c V k₁) s₁ rs₁ s₁')
    (h₂ : History stream₂ taken₂ (EventLink.read c V k₂) s₂ rs₂ s₂')
    (packets : List (List UInt8)) (hf : ∀ p ∈ packets, Framed p) (tail₁ tail₂ : List UInt8)
    (ht₁ : ∀ p u, Framed p → tail₁ ≠ 0x04 :: p ++ u) (ht₂ : ∀ p u, Framed p → tail₂ ≠ p ++ u)
    (hb₁ : (stream₁ s₁').drop (taken₁ s₁) = uartBytes packets ++ tail₁)
    (hb₂ : (stream₂ s₂').drop (taken₂ s₂) = packets.flatten ++ tail₂) :
    (rs₁.filterMap uartOutcome <+: rs₂.filterMap linkOutcome ∨
      rs₂.filterMap linkOutcome <+: rs₁.filterMap uartOutcome) ∧
    (pending stream₁ taken₁ s₁' = tail₁ → pending stream₂ taken₂ s₂' = tail₂ →
      rs₁.filterMap uartOutcome = rs₂.filterMap linkOutcome) := by
  obtain ⟨-, ps, f1, o1, -, b1⟩ := history (uart_steps hd₁) h₁
  obtain ⟨-, qs, f2, o2, -, b2⟩ := history (link_steps hd₂) h₂
  rw [b1] at hb₁
  rw [b2, ← wire_id packets] at hb₂
  rw [o1, o2]
  constructor
  · have hp := wire_prefix prefixFree_uart ps packets _ _ f1 hf ht₁ hb₁
    have hq := wire_prefix prefixFree_id qs packets _ _ f2 hf ht₂ hb₂
    rcases List.prefix_or_prefix_of_prefix hp hq with h | h
    · exact .inl (h.map _)
    · exact .inr (h.map _)
  · intro p1 p2
    change (stream₁ s₁').drop (taken₁ s₁') = tail₁ at p1
    change (stream₂ s₂').drop (taken₂ s₂') = tail₂ at p2
    rw [p1] at hb₁
    rw [p2] at hb₂
    rw [wire_unique prefixFree_uart ps packets _ _ f1 hf ht₁ ht₁ hb₁,
      wire_unique prefixFree_id qs packets _ _ f2 hf ht₂ ht₂ hb₂]

/-- A packet arrives in full over a UART, byte by byte over an event link. -/
example : (∃ s', History (σ := Fifo) Prod.fst Prod.snd (Uart.read ⟨false, false⟩ demoVendor fifo)
      ([0x04, 0x10, 0x01, 0x2A, 0x04], 0) [.ok (.event (.hardwareError ⟨0x2A⟩)), .err .wouldBlock] s' ∧
      s'.1.drop 0 = uartBytes [[0x10, 0x01, 0x2A]] ++ [0x04] ∧ pending (σ := Fifo) Prod.fst Prod.snd s' = [0x04]) ∧
    (∃ s', History (σ := Fifo) Prod.fst Prod.snd (EventLink.read ⟨false, false⟩ demoVendor fifo)
      ([0x10], 0) [.err .wouldBlock, .ok (.hardwareError ⟨0x2A⟩)] s' ∧
      s'.1.drop 0 = [[0x10, 0x01, 0x2A]].flatten ++ [] ∧ pending (σ := Fifo) Prod.fst Prod.snd s' = []) ∧
    Framed [0x10, 0x01, 0x2A] ∧
    (∀ p u, Framed p → [0x04] ≠ 0x04 :: p ++ u) ∧ (∀ p u, Framed p → [] ≠ p ++ u) :=
  ⟨⟨_, .call (by rw [uartRead_eq]; rfl) (.call (by rw [uartRead_eq]; rfl) (.nil _)), rfl, rfl⟩,
   ⟨_, .call (s₁ := ([0x10], 0)) (by rw [linkRead_eq]; rfl) (.wait (s₁ := ([0x10, 0x01, 0x2A], 0)) ⟨[0x01, 0x2A], rfl⟩ rfl
      (.call (by rw [linkRead_eq]; rfl) (.nil _))), rfl, rfl⟩,
   ⟨0x10, [0x2A], by decide, rfl⟩,
   (by rintro p u ⟨a, b, -, rfl⟩ h; cases h), (by rintro p u ⟨a, b, -, rfl⟩ h; cases h)⟩

end Events

section Applications

variable {σ E VS : Type} {c : Cfg} {V : Vendor}

theorem overUart_readInto (k : Controller σ E) {m n : Nat} (hm : m = n + 1) (s : σ) :
    (∀ got s', k.readInto n s = (.ok got, s') →
      ∃ got' : Arr m, got'.val = 0x04 :: got.val ∧ (overUart k).readInto m s = (.ok got', s')) ∧
    (∀ e s', k.readInto n s = (.err e, s') → (overUart k).readInto m s = (.err e, s')) ∧
    (∀ s', k.readInto n s = (.panic, s') → (overUart k).readInto m s = (.panic, s')) := by
  subst hm
  refine ⟨fun got s' h => ⟨⟨0x04 :: got.val, by rw [List.length_cons, got.len]⟩, rfl, ?_⟩, fun e s' h => ?_,
    fun s' h => ?_⟩ <;> simp only [overUart, h]

/-- **C73.** Reading from a UART in front of an event link is reading from the event link: for every controller,
even one that contradicts itself, and every state, the result and the state afterwards are the same. -/
theorem C73_read (k : Controller σ E) (s : σ) :
    Uart.read c V (overUart k) s = (asUart (EventLink.read c V k s).1, (EventLink.read c V k s).2) := by
  rw [uartRead_eq, linkRead_eq]
  show (match k.peek 1 s with
    | (.panic, s₂) => _
    | (.err e, s₂) => _
    | (.ok l, s₂) => _) = _
  rcases k.peek 1 s with ⟨r, s₁⟩
  cases r with
  | panic => rfl
  | err e => cases e <;> rfl
  | ok l =>
    simp only
    obtain ⟨h1, h2, h3⟩ := overUart_readInto k (m := 3 + l.toNat) (n := 2 + l.toNat) (by omega) s₁
    rcases e : k.readInto (2 + l.toNat) s₁ with ⟨r, s₂⟩
    cases r with
    | panic => rw [h3 s₂ e]; rfl
    | err x => rw [h2 x s₂ e]; cases x <;> rfl
    | ok got =>
      obtain ⟨got', hg, h⟩ := h1 got s₂ e
      rw [h]
      simp only [hg, List.drop_succ_cons, List.drop_zero]
      cases Event.new c V got.val <;> rfl

/-- **C73.** Whatever an application does, and whatever happens to the controller meanwhile, over a UART it is told
what it is told over the event and command links behind it, and leaves the controller in the same state. -/
theorem C73_application (k : Controller σ E) (vinto : VS → UInt8)
    {app : Nat → List (Act VS E (Res (Nb (UartError E V.VErr)) (UartPacket V))) → Move VS}
    (hc : ∀ n past cmd, app n past = .command cmd → cmd.Constructible c) (outside : Nat → σ → σ) (s : σ) (n : Nat) :
    let uart := play (Uart.read c V (overUart k)) (Command.exec uartHeader (overUart k) vinto) app outside n s
    let links := play (EventLink.read c V k) (Command.exec cmdLinkHeader k vinto)
      (fun n past => app n (past.map actAsUart)) outside n s
    uart.1 = links.1.map actAsUart ∧ uart.2 = links.2 := by
  have hx (cmd : Command VS) (h : cmd.Constructible c) (s : σ) :
      cmd.exec uartHeader (overUart k) vinto s = cmd.exec cmdLinkHeader k vinto s := by
    rw [← C73_commands c k vinto cmd h s]
    have e1 := congrFun (exec_eq c .uart (overUart k) vinto cmd h) s
    have e2 := congrFun (exec_eq c .uart (behindUart k) vinto cmd h) s
    exact e1.trans e2.symm
  have := play_related (R := fun s s' : σ => s' = s) (read := EventLink.read c V k)
    (read' := Uart.read c V (overUart k)) (exec := Command.exec cmdLinkHeader k vinto)
    (exec' := Command.exec uartHeader (overUart k) vinto) (ρ := actAsUart) (app := app)
    (outside := outside) (outside' := outside)
    (fun s s' h => by subst h; rw [C73_read]; exact ⟨rfl, rfl⟩)
    (fun n past cmd ha s s' h => by subst h; rw [hx cmd (hc n past cmd ha)]; exact ⟨rfl, rfl⟩)
    (fun n s s' h => by subst h; rfl) (s := s) (s' := s) rfl n
  exact this

/-- A hardware error, over the event link and over a UART in front of it. -/
example : (EventLink.read ⟨false, false⟩ demoVendor modem ⟨([0x10, 0x01, 0x2A], 0), []⟩).1 =
      .ok (.hardwareError ⟨0x2A⟩) ∧
    (Uart.read ⟨false, false⟩ demoVendor (overUart modem) ⟨([0x10, 0x01, 0x2A], 0), []⟩).1 =
      .ok (.event (.hardwareError ⟨0x2A⟩)) := by
  rw [C73_read, linkRead_eq]
  exact ⟨rfl, rfl⟩

end Applications

end Bt
