import Verif.Props.SecretsForever

/-! # C124: when the controller falls silent, the application is up to date for good -/

namespace Bt

open Spec

variable {X A σ ε α E : Type} {c : Cfg} {V : Vendor} {k : Controller σ E}
  {stream : σ → List UInt8} {taken : σ → Nat}

section
variable {note : A → Res V.EvErr V.Ev → A} {w : Nat → World X A}

/-- From time `i` on the first packet on its way is read and noted, or nothing changes for the application. -/
def Draining (c : Cfg) (V : Vendor) (note : A → Res V.EvErr V.Ev → A) (w : Nat → World X A) (i : Nat) : Prop :=
  ∀ j, i ≤ j → World.ReadNow c V note (w j) (w (j + 1)) ∨ (w (j + 1)).way = (w j).way ∧ (w (j + 1)).a = (w j).a

/-- What the application will come to. -/
def comesTo (c : Cfg) (V : Vendor) (note : A → Res V.EvErr V.Ev → A) (w : World X A) : A :=
  (w.way.map (Event.new c V)).foldl note w.a

theorem comesTo_same {i : Nat} (h : Draining c V note w i) (d : Nat) :
    comesTo c V note (w (i + d)) = comesTo c V note (w i) ∧ (w (i + d)).way.length ≤ (w i).way.length := by
  induction d with
  | zero => exact ⟨rfl, Nat.le_refl _⟩
  | succ d ih =>
    rw [← ih.1]
    rcases h (i + d) (by omega) with ⟨p, rest, h1, h2⟩ | ⟨h1, h2⟩
    · rw [show i + (d + 1) = i + d + 1 by omega, h2]
      refine ⟨by simp [comesTo, h1], ?_⟩
      have := ih.2
      rw [h1] at this
      simp only [List.length_cons] at this
      exact Nat.le_of_succ_le this
    · rw [show i + (d + 1) = i + d + 1 by omega]
      exact ⟨by rw [comesTo, h1, h2]; rfl, by rw [h1]; exact ih.2⟩

theorem drains (hr : PacketsRead c V note w) (n : Nat) : ∀ i, (w i).way.length ≤ n → Draining c V note w i →
    ∃ j, i ≤ j ∧ (w j).way = [] := by
  induction n with
  | zero => exact fun i hn _ => ⟨i, Nat.le_refl i, List.length_eq_zero_iff.mp (Nat.le_zero.mp hn)⟩
  | succ n ih =>
    intro i hn h
    by_cases h0 : (w i).way = []
    · exact ⟨i, Nat.le_refl i, h0⟩
    obtain ⟨l, hl, p, rest, h1, h2⟩ := hr i h0
    obtain ⟨d, rfl⟩ := Nat.exists_eq_add_of_le hl
    have h3 := (comesTo_same h d).2
    rw [h1] at h3
    simp only [List.length_cons] at h3
    obtain ⟨j, hj, hj0⟩ := ih (i + d + 1) (by rw [h2]; simp only; omega) (fun j hj => h j (by omega))
    exact ⟨j, by omega, hj0⟩

theorem drained (hr : PacketsRead c V note w) {i : Nat} (h : Draining c V note w i) :
    ∃ n, ∀ j, n ≤ j → (w j).way = [] ∧ (w j).a = comesTo c V note (w i) := by
  obtain ⟨n, hn, h0⟩ := drains hr _ i (Nat.le_refl _) h
  refine ⟨n, fun j hj => ?_⟩
  obtain ⟨d, rfl⟩ := Nat.exists_eq_add_of_le hj
  have h1 := (comesTo_same (i := n) (fun j hj => h j (by omega)) d).2
  rw [h0] at h1
  have h2 : (w (n + d)).way = [] := List.length_eq_zero_iff.mp (Nat.le_zero.mp h1)
  obtain ⟨e, he⟩ := Nat.exists_eq_add_of_le (Nat.le_trans hn hj)
  refine ⟨h2, ?_⟩
  rw [← (comesTo_same h e).1, ← he, comesTo, h2]
  rfl

end

section
variable {init : X → A → Prop} {env : Env X A} {note : A → Res V.EvErr V.Ev → A} {s : Nat → Bytes X A σ}

theorem silent_draining {lead : List UInt8} {read : Ctl σ ε α} {outcome : Res ε α → Option (Res V.EvErr V.Ev)}
    (hm : Steps stream taken read (lead ++ ·) outcome (Event.new c V))
    (h : ByteEndless c V init env note lead stream taken read outcome s)
    (henv : ∀ s x new a, env s x new a → a = s.a) {i : Nat} (hi : ∀ j, i ≤ j → (s j).told = (s i).told) :
    Draining c V note (fun i => (s i).world lead taken) i := by
  intro j hj
  obtain ⟨-, h1 | ⟨h1, h2⟩⟩ := byte_step hm h j
  · exact .inl h1
  · refine .inr ⟨?_, ?_⟩
    · simp only [Bytes.world, h1, hi j hj, hi (j + 1) (by omega)]
    · rcases h2 with ⟨x, new, a, f1, -, f3⟩ | h2
      · exact (congrArg World.a f3).trans (henv _ _ _ _ f1)
      · exact congrArg World.a h2

/-- **C124** (`uart`). If in an endless execution over a fair transport nothing more is told from some time on, then from some
time on no packet is left unread, and the application, if it changes only by reading, is and stays exactly where the packets
that were on their way lead. -/
theorem C124_uart (hd : Delivers k stream taken)
    (h : ByteEndless c V init env note [0x04] stream taken (Uart.read c V k) uartOutcome s)
    (hf : BytesFair k 3 note [0x04] stream taken (Uart.read c V k) uartOutcome s)
    (henv : ∀ s x new a, env s x new a → a = s.a) (i : Nat) (hi : ∀ j, i ≤ j → (s j).told = (s i).told) :
    ∃ n, ∀ j, n ≤ j → notTaken [0x04] (s j).told (taken (s j).port) = [] ∧
      (s j).a = ((notTaken [0x04] (s i).told (taken (s i).port)).map (Event.new c V)).foldl note (s i).a :=
  drained ((C121_uart hd h).2 hf) (silent_draining (uart_steps hd) h henv hi)

/-- **C124** (`event_link`). The same without packet indicators. -/
theorem C124_event_link (hd : Delivers k stream taken)
    (h : ByteEndless c V init env note [] stream taken (EventLink.read c V k) linkOutcome s)
    (hf : BytesFair k 2 note [] stream taken (EventLink.read c V k) linkOutcome s)
    (henv : ∀ s x new a, env s x new a → a = s.a) (i : Nat) (hi : ∀ j, i ≤ j → (s j).told = (s i).told) :
    ∃ n, ∀ j, n ≤ j → notTaken [] (s j).told (taken (s j).port) = [] ∧
      (s j).a = ((notTaken [] (s i).told (taken (s i).port)).map (Event.new c V)).foldl note (s i).a :=
  drained ((C121_event_link hd h).2 hf) (silent_draining (link_steps hd) h henv hi)

end

/-- Two packets are on their way when the controller falls silent. -/
example : ∃ s : Nat → Bytes SecretWorld Ledger Fifo, (notTaken [0x04] (s 0).told (s 0).port.2).length = 2 ∧
    ∃ n, ∀ j, n ≤ j → notTaken [0x04] (s j).told (s j).port.2 = [] := by
  obtain ⟨s, h1, h2⟩ := C117_uart_complete (encrypted_unread True)
  have hq (p : Fifo) := uart_quiet (c := ⟨false, false⟩) (V := demoVendor) fifo_quiet p
  refine ⟨readsOn Ledger.noteOutcome [0x04] (Uart.read ⟨false, false⟩ demoVendor fifo) uartOutcome s,
    congrArg (fun w => w.way.length) h2, ?_⟩
  obtain ⟨n, hn⟩ := C124_uart fifo_delivers (readsOn_endless (uart_steps fifo_delivers) hq h1) (readsOn_fair hq 3 s)
    secretEnv_same 0 (fun j _ => (readsOn_told hq s j).1.trans (readsOn_told hq s 0).1.symm)
  exact ⟨n, fun j hj => (hn j hj).1⟩

/-- And over an event link. -/
example : ∃ s : Nat → Bytes SecretWorld Ledger Fifo, (notTaken [] (s 0).told (s 0).port.2).length = 2 ∧
    ∃ n, ∀ j, n ≤ j → notTaken [] (s j).told (s j).port.2 = [] := by
  obtain ⟨s, h1, h2⟩ := C117_event_link_complete (encrypted_unread True)
  have hq (p : Fifo) := link_quiet (c := ⟨false, false⟩) (V := demoVendor) fifo_quiet p
  refine ⟨readsOn Ledger.noteOutcome [] (EventLink.read ⟨false, false⟩ demoVendor fifo) linkOutcome s,
    congrArg (fun w => w.way.length) h2, ?_⟩
  obtain ⟨n, hn⟩ := C124_event_link fifo_delivers (readsOn_endless (link_steps fifo_delivers) hq h1) (readsOn_fair hq 2 s)
    secretEnv_same 0 (fun j _ => (readsOn_told hq s j).1.trans (readsOn_told hq s 0).1.symm)
  exact ⟨n, fun j hj => (hn j hj).1⟩

end Bt
