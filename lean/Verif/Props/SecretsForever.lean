import Verif.Props.WholesForever

/-! # C122: whether a connection is encrypted, the application gets to know -/

namespace Bt

open Spec

variable {X A σ ε α E : Type} {c : Cfg} {V : Vendor} {k : Controller σ E}
  {stream : σ → List UInt8} {taken : σ → Nat}

/-! ## Every state has a fair endless execution -/

section
variable {init : X → A → Prop} {env : Env X A} {note : A → Res V.EvErr V.Ev → A} {lead : List UInt8}
  {outcome : Res ε α → Option (Res V.EvErr V.Ev)} {read : Ctl Fifo ε α}

/-- All that is missing arrives, and then the application does nothing but read. -/
def readsOn (note : A → Res V.EvErr V.Ev → A) (lead : List UInt8) (read : Ctl Fifo ε α)
    (outcome : Res ε α → Option (Res V.EvErr V.Ev)) (s : Bytes X A Fifo) : Nat → Bytes X A Fifo
  | 0 => ⟨s.x, s.told, (transmitted lead s.told, s.port.2), s.a⟩
  | i + 1 =>
    let t := readsOn note lead read outcome s i
    ⟨t.x, t.told, (read t.port).2, ((outcome (read t.port).1).map (note t.a)).getD t.a⟩

theorem readsOn_told (hq : ∀ p, (read p).2.1 = p.1) (s : Bytes X A Fifo) (i : Nat) :
    (readsOn note lead read outcome s i).told = s.told ∧
      (readsOn note lead read outcome s i).port.1 = transmitted lead s.told ∧
      (readsOn note lead read outcome s i).x = s.x := by
  induction i with
  | zero => exact ⟨rfl, rfl, rfl⟩
  | succ i ih => exact ⟨ih.1, (hq _).trans ih.2.1, ih.2.2⟩

theorem readsOn_endless (hm : Steps Prod.fst Prod.snd read (lead ++ ·) outcome (Event.new c V))
    (hq : ∀ p, (read p).2.1 = p.1) {s : Bytes X A Fifo}
    (h : ByteRun c V init env note lead Prod.fst Prod.snd read outcome s) :
    ByteEndless c V init env note lead Prod.fst Prod.snd read outcome (readsOn note lead read outcome s) := by
  refine ⟨.arrives h (byte_run hm h).1.arrived rfl List.prefix_rfl, fun i => .inr (.inr ⟨rfl, ?_⟩)⟩
  rw [(readsOn_told hq s (i + 1)).2.1, (readsOn_told hq s i).1]
  exact List.prefix_rfl

theorem readsOn_fair (hq : ∀ p, (read p).2.1 = p.1) (n : Nat) (s : Bytes X A Fifo) :
    BytesFair fifo n note lead Prod.fst Prod.snd read outcome (readsOn note lead read outcome s) where
  arrives i := ⟨i, Nat.le_refl i, by
    rw [(readsOn_told hq s i).1, (readsOn_told hq s i).2.1]
    exact List.prefix_rfl⟩
  serves i := ⟨i, Nat.le_refl i, prompt_serves fifo_prompt n _, rfl⟩

end

/-- **C121** (`uart`). The assumptions can be met from every state: every state that can be reached with whole packets is, with
bytes, the first of a fair endless execution. -/
theorem C121_uart_goes_on {init : X → A → Prop} {env : Env X A} {note : A → Res V.EvErr V.Ev → A} {w : World X A}
    (h : PacketRun c V init env note w) : ∃ s : Nat → Bytes X A Fifo,
      ByteEndless c V init env note [0x04] Prod.fst Prod.snd (Uart.read c V fifo) uartOutcome s ∧
      BytesFair fifo 3 note [0x04] Prod.fst Prod.snd (Uart.read c V fifo) uartOutcome s ∧
      (s 0).world [0x04] Prod.snd = w := by
  obtain ⟨s, h1, h2⟩ := C117_uart_complete h
  have hq (p : Fifo) := uart_quiet (c := c) (V := V) fifo_quiet p
  exact ⟨_, readsOn_endless (uart_steps fifo_delivers) hq h1, readsOn_fair hq 3 s, h2⟩

/-- **C121** (`event_link`). The same without packet indicators. -/
theorem C121_event_link_goes_on {init : X → A → Prop} {env : Env X A} {note : A → Res V.EvErr V.Ev → A} {w : World X A}
    (h : PacketRun c V init env note w) : ∃ s : Nat → Bytes X A Fifo,
      ByteEndless c V init env note [] Prod.fst Prod.snd (EventLink.read c V fifo) linkOutcome s ∧
      BytesFair fifo 2 note [] Prod.fst Prod.snd (EventLink.read c V fifo) linkOutcome s ∧
      (s 0).world [] Prod.snd = w := by
  obtain ⟨s, h1, h2⟩ := C117_event_link_complete h
  have hq (p : Fifo) := link_quiet (c := c) (V := V) fifo_quiet p
  exact ⟨_, readsOn_endless (link_steps fifo_delivers) hq h1, readsOn_fair hq 2 s, h2⟩

/-! ## Secrets -/

theorem secretEnv_same {fresh steady known : Prop} (s : World SecretWorld Ledger) (x : SecretWorld)
    (new : List (List UInt8)) (a : Ledger) (h : secretEnv c V fresh steady known s x new a) : a = s.a := by
  unfold secretEnv at h
  generalize ht : World.secrets ⟨x, s.way ++ new, a⟩ = t at h
  have ha : t.ledger = a := by rw [← ht]; rfl
  have hw : t.way = s.way ++ new := by rw [← ht]; rfl
  rw [← ha]
  cases h with
  | reads p rest hp =>
    exfalso
    have h1 := congrArg List.length hw
    have h2 : s.way.length = (p :: rest).length := congrArg List.length hp
    simp at h1 h2
    omega
  | _ => rfl

section
variable {fresh steady : Prop} {s : Nat → Bytes SecretWorld Ledger σ}

/-- **C122** (`uart`). In an endless execution over a fair transport, whatever is the case at some time, that a connection is
encrypted or that it is not, the application believes some time later. -/
theorem C122_uart (hd : Delivers k stream taken)
    (h : ByteEndless c V noSecrets (secretEnv c V fresh steady True) Ledger.noteOutcome [0x04] stream taken (Uart.read c V k)
      uartOutcome s)
    (hf : BytesFair k 3 Ledger.noteOutcome [0x04] stream taken (Uart.read c V k) uartOutcome s) (i : Nat) (g : UInt16) :
    ∃ j, i ≤ j ∧ (s j).a.encrypted g.toNat = (s i).x.2.1 g := by
  obtain ⟨j, hj, h1⟩ := C121_uart_catches_up hd h hf secretEnv_same i
  refine ⟨j, hj, ?_⟩
  rw [h1, List.foldl_map]
  exact C116_catches_up (secrets_run (C117_uart hd (byte_endless_run h i))) g

/-- **C122** (`event_link`). The same without packet indicators. -/
theorem C122_event_link (hd : Delivers k stream taken)
    (h : ByteEndless c V noSecrets (secretEnv c V fresh steady True) Ledger.noteOutcome [] stream taken (EventLink.read c V k)
      linkOutcome s)
    (hf : BytesFair k 2 Ledger.noteOutcome [] stream taken (EventLink.read c V k) linkOutcome s) (i : Nat) (g : UInt16) :
    ∃ j, i ≤ j ∧ (s j).a.encrypted g.toNat = (s i).x.2.1 g := by
  obtain ⟨j, hj, h1⟩ := C121_event_link_catches_up hd h hf secretEnv_same i
  refine ⟨j, hj, ?_⟩
  rw [h1, List.foldl_map]
  exact C116_catches_up (secrets_run (C117_event_link hd (byte_endless_run h i))) g

/-- **C122** (`uart`). So secrets are not held back for ever: on a connection that stays encrypted they may be sent again and
again. -/
theorem C122_uart_may_send (hd : Delivers k stream taken)
    (h : ByteEndless c V noSecrets (secretEnv c V fresh steady True) Ledger.noteOutcome [0x04] stream taken (Uart.read c V k)
      uartOutcome s)
    (hf : BytesFair k 3 Ledger.noteOutcome [0x04] stream taken (Uart.read c V k) uartOutcome s) (g : UInt16) (i : Nat)
    (hi : ∀ j, i ≤ j → (s j).x.2.1 g = true) (n : Nat) : ∃ j, n ≤ j ∧ (s j).a.encrypted g.toNat = true := by
  obtain ⟨j, hj, h1⟩ := C122_uart hd h hf (max i n) g
  exact ⟨j, Nat.le_trans (Nat.le_max_right i n) hj, h1.trans (hi _ (Nat.le_max_left i n))⟩

/-- **C122** (`event_link`). The same without packet indicators. -/
theorem C122_event_link_may_send (hd : Delivers k stream taken)
    (h : ByteEndless c V noSecrets (secretEnv c V fresh steady True) Ledger.noteOutcome [] stream taken (EventLink.read c V k)
      linkOutcome s)
    (hf : BytesFair k 2 Ledger.noteOutcome [] stream taken (EventLink.read c V k) linkOutcome s) (g : UInt16) (i : Nat)
    (hi : ∀ j, i ≤ j → (s j).x.2.1 g = true) (n : Nat) : ∃ j, n ≤ j ∧ (s j).a.encrypted g.toNat = true := by
  obtain ⟨j, hj, h1⟩ := C122_event_link hd h hf (max i n) g
  exact ⟨j, Nat.le_trans (Nat.le_max_right i n) hj, h1.trans (hi _ (Nat.le_max_left i n))⟩

end

/-- With whole packets: connection 1 is opened and encrypted, and the application has read neither. -/
theorem encrypted_unread (known : Prop) : PacketRun ⟨false, false⟩ demoVendor noSecrets
    (secretEnv ⟨false, false⟩ demoVendor True True known) Ledger.noteOutcome ⟨(put (fun _ => false) 1 true, put (fun _ => false) 1 true, []),
      [frame 0x3E (0x01 :: 0 :: le16 1 ++ []), frame 0x08 (0 :: le16 1 ++ [1])], {}⟩ := by
  let on : UInt16 → Bool := put (fun _ => false) 1 true
  let p1 := frame 0x3E (0x01 :: 0 :: le16 1 ++ [])
  let p2 := frame 0x08 (0 :: le16 1 ++ [1])
  let Run := PacketRun ⟨false, false⟩ demoVendor noSecrets (secretEnv ⟨false, false⟩ demoVendor True True known)
    Ledger.noteOutcome
  have r0 : Run ⟨(fun _ => false, fun _ => false, []), [], {}⟩ := .start ⟨rfl, rfl⟩
  have r1 : Run ⟨(on, fun _ => false, []), [p1], {}⟩ := .acts (new := [p1]) r0
    (Secrets.Step.opens 1 [] rfl (by simp [World.secrets])) (by
      simp only [List.mem_singleton, forall_eq]
      exact ⟨_, _, by simp, rfl⟩)
  exact .acts (new := [p2]) r1 (Secrets.Step.encrypts 1 1 rfl (.inl rfl)) (by
    simp only [List.mem_singleton, forall_eq]
    exact ⟨_, _, by simp, rfl⟩)

/-- An execution of `C121_uart_goes_on`. -/
example : ∃ s : Nat → Bytes SecretWorld Ledger Fifo, ((s 0).world [0x04] Prod.snd).way.length = 2 := by
  obtain ⟨s, -, -, h⟩ := C121_uart_goes_on (encrypted_unread True)
  exact ⟨s, by rw [h]; rfl⟩

/-- An endless execution over a UART that goes on from there: secrets may be sent. -/
example : ∃ s : Nat → Bytes SecretWorld Ledger Fifo, (s 0).a = {} ∧ ∀ n, ∃ j, n ≤ j ∧ (s j).a.encrypted 1 = true := by
  obtain ⟨s, h1, h2⟩ := C117_uart_complete (encrypted_unread True)
  have hq (p : Fifo) := uart_quiet (c := ⟨false, false⟩) (V := demoVendor) fifo_quiet p
  refine ⟨readsOn Ledger.noteOutcome [0x04] (Uart.read ⟨false, false⟩ demoVendor fifo) uartOutcome s,
    congrArg World.a h2, fun n => ?_⟩
  refine C122_uart_may_send fifo_delivers (readsOn_endless (uart_steps fifo_delivers) hq h1) (readsOn_fair hq 3 s) 1 0
    (fun j _ => ?_) n
  rw [(readsOn_told hq s j).2.2, show s.x = _ from congrArg World.x h2]
  rfl

/-- And over an event link. -/
example : ∃ s : Nat → Bytes SecretWorld Ledger Fifo, (s 0).a = {} ∧ ∀ n, ∃ j, n ≤ j ∧ (s j).a.encrypted 1 = true := by
  obtain ⟨s, h1, h2⟩ := C117_event_link_complete (encrypted_unread True)
  have hq (p : Fifo) := link_quiet (c := ⟨false, false⟩) (V := demoVendor) fifo_quiet p
  refine ⟨readsOn Ledger.noteOutcome [] (EventLink.read ⟨false, false⟩ demoVendor fifo) linkOutcome s,
    congrArg World.a h2, fun n => ?_⟩
  refine C122_event_link_may_send fifo_delivers (readsOn_endless (link_steps fifo_delivers) hq h1) (readsOn_fair hq 2 s) 1 0
    (fun j _ => ?_) n
  rw [(readsOn_told hq s j).2.2, show s.x = _ from congrArg World.x h2]
  rfl

end Bt
