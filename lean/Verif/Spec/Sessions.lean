import Verif.Spec.Streams
import Verif.Spec.Controllers

/-! # Specification of whole sessions: commands and reads interleaved, and controllers that recover -/

namespace Spec

open Bt

/-! ## Sending and receiving over one controller -/

/-- A controller whose two directions do not disturb each other: `Delivers` for the receiving side,
`WritesAtomically` for the sending side, writing hands out no received byte and loses none (bytes may
arrive meanwhile), and receiving sends nothing. -/
structure Duplex {σ E : Type} (k : Controller σ E) (stream : σ → List UInt8) (taken : σ → Nat)
    (sent : σ → List UInt8) : Prop where
  delivers : Delivers k stream taken
  writes : WritesAtomically k sent
  write : ∀ h p s, stream s <+: stream (k.write h p s).2 ∧ taken (k.write h p s).2 = taken s
  peek : ∀ n s, sent (k.peek n s).2 = sent s
  readInto : ∀ n s, sent (k.readInto n s).2 = sent s

/-- Two controllers, one for each direction, seen as one: the crate's event link and command link
(event_link.rs 26-28: events are sent by a different physical link than commands). -/
def twoLinks {σ₁ σ₂ E : Type} (events : Controller σ₁ E) (commands : Controller σ₂ E) :
    Controller (σ₁ × σ₂) E where
  write h p := fun s => ((commands.write h p s.2).1, (s.1, (commands.write h p s.2).2))
  peek n := fun s => ((events.peek n s.1).1, ((events.peek n s.1).2, s.2))
  readInto n := fun s => ((events.readInto n s.1).1, ((events.readInto n s.1).2, s.2))

/-- A call made by the host, with its result. `ρ` is the type of the results of reading. -/
inductive Act (VS E ρ : Type) where
  | read (r : ρ)
  | command (cmd : Command VS) (r : Res (Nb (HostError E VS)) Unit)

/-- The results of the reads of a session. -/
def Act.reads {VS E ρ : Type} : List (Act VS E ρ) → List ρ :=
  List.filterMap fun
    | .read r => some r
    | .command _ _ => none

/-- The opcodes and parameters of the commands of a session that returned Ok. -/
def Act.accepted {VS E ρ : Type} : List (Act VS E ρ) → List (UInt16 × List UInt8) :=
  List.filterMap fun
    | .command cmd (.ok ()) => some (cmdOpcode cmd, cmdParams cmd)
    | _ => none

/-- Any session: reads and commands in any order, and between them anything that receives bytes but neither
hands any out nor sends any. -/
inductive Session {σ E ε α VS : Type} (stream : σ → List UInt8) (taken : σ → Nat) (sent : σ → List UInt8)
    (read : Ctl σ ε α) (exec : Command VS → Ctl σ (Nb (HostError E VS)) Unit) (allowed : Command VS → Prop) :
    σ → List (Act VS E (Res ε α)) → σ → Prop where
  | nil (s) : Session stream taken sent read exec allowed s [] s
  | wait {s s₁ as s'} : stream s <+: stream s₁ → taken s₁ = taken s → sent s₁ = sent s →
      Session stream taken sent read exec allowed s₁ as s' →
      Session stream taken sent read exec allowed s as s'
  | read {s r s₁ as s'} : read s = (r, s₁) → Session stream taken sent read exec allowed s₁ as s' →
      Session stream taken sent read exec allowed s (.read r :: as) s'
  | command {s cmd r s₁ as s'} : allowed cmd → exec cmd s = (r, s₁) →
      Session stream taken sent read exec allowed s₁ as s' →
      Session stream taken sent read exec allowed s (.command cmd r :: as) s'

/-! ## Controllers that recover -/

/-- `patience s` bounds how often the controller will still fail though the bytes asked for have arrived:
each such failure uses some of it up, and no call adds to it. -/
structure Patient {σ E : Type} (k : Controller σ E) (stream : σ → List UInt8) (taken : σ → Nat)
    (patience : σ → Nat) : Prop where
  peek : ∀ n s, n < (pending stream taken s).length → patience (k.peek n s).2 ≤ patience s ∧
    ((∃ b, (k.peek n s).1 = .ok b) ∨ patience (k.peek n s).2 < patience s)
  readInto : ∀ n s, n ≤ (pending stream taken s).length → patience (k.readInto n s).2 ≤ patience s ∧
    ((∃ got, (k.readInto n s).1 = .ok got) ∨ patience (k.readInto n s).2 < patience s)

/-! ## Controllers that meet the assumptions -/

/-- A receive queue, and the bytes sent. -/
structure Modem where
  queue : Fifo
  sent : List UInt8

/-- A controller with a receive queue and a transmitter. -/
def modem : Controller Modem Unit where
  write h p := fun s => (.ok (), { s with sent := s.sent ++ (h ++ p) })
  peek n := fun s => ((fifo.peek n s.queue).1, { s with queue := (fifo.peek n s.queue).2 })
  readInto n := fun s => ((fifo.readInto n s.queue).1, { s with queue := (fifo.readInto n s.queue).2 })

theorem modem_duplex : Duplex modem (·.queue.1) (·.queue.2) (·.sent) where
  delivers :=
    { peek := fun n s r s' h => by
        obtain ⟨rfl, rfl⟩ := Prod.mk.inj h
        exact fifo_delivers.peek n s.queue _ _ rfl
      readInto := fun n s r s' h => by
        obtain ⟨rfl, rfl⟩ := Prod.mk.inj h
        exact fifo_delivers.readInto n s.queue _ _ rfl }
  writes := ⟨fun _ _ _ _ => rfl, fun _ _ _ _ h => (by cases h), fun _ _ _ h => (by cases h)⟩
  write _ _ _ := ⟨List.prefix_rfl, rfl⟩
  peek _ _ := rfl
  readInto _ _ := rfl

/-- A call that fails as long as the second component is not zero. -/
def flakyCall {α : Type} (call : Ctl Fifo (Nb Unit) α) : Ctl (Fifo × Nat) (Nb Unit) α := fun s =>
  match s.2 with
  | n + 1 => (.err (.other ()), (s.1, n))
  | 0 => ((call s.1).1, ((call s.1).2, 0))

/-- A controller that fails a given number of times and then works. -/
def flaky : Controller (Fifo × Nat) Unit where
  write h p := flakyCall (fifo.write h p)
  peek n := flakyCall (fifo.peek n)
  readInto n := flakyCall (fifo.readInto n)

theorem flaky_delivers : Delivers flaky (·.1.1) (·.1.2) where
  peek n s r s' h := by
    obtain ⟨q, m⟩ := s
    cases m with
    | succ m =>
      obtain ⟨rfl, rfl⟩ := Prod.mk.inj h
      exact ⟨by simp, List.prefix_rfl, rfl, fun b h => by cases h⟩
    | zero =>
      obtain ⟨rfl, rfl⟩ := Prod.mk.inj h
      exact fifo_delivers.peek n q _ _ rfl
  readInto n s r s' h := by
    obtain ⟨q, m⟩ := s
    cases m with
    | succ m =>
      obtain ⟨rfl, rfl⟩ := Prod.mk.inj h
      exact ⟨by simp, List.prefix_rfl, fun _ _ => rfl, fun b h => by cases h⟩
    | zero =>
      obtain ⟨rfl, rfl⟩ := Prod.mk.inj h
      exact fifo_delivers.readInto n q _ _ rfl

theorem flaky_patient : Patient flaky (·.1.1) (·.1.2) (·.2) where
  peek n s h := by
    obtain ⟨q, m⟩ := s
    cases m with
    | succ m => exact ⟨Nat.le_succ m, .inr (Nat.lt_succ_self m)⟩
    | zero => exact ⟨Nat.le_refl 0, .inl (fifo_prompt.peek n q h)⟩
  readInto n s h := by
    obtain ⟨q, m⟩ := s
    cases m with
    | succ m => exact ⟨Nat.le_succ m, .inr (Nat.lt_succ_self m)⟩
    | zero => exact ⟨Nat.le_refl 0, .inl (fifo_prompt.readInto n q h)⟩

/-- A call that fails if it is one of every third calls. -/
def thirdFails {α : Type} (call : Ctl Fifo (Nb Unit) α) : Ctl (Fifo × Nat) (Nb Unit) α := fun s =>
  if s.2 % 3 = 2 then (.err (.other ()), (s.1, s.2 + 1))
  else ((call s.1).1, ((call s.1).2, s.2 + 1))

/-- A controller every third call of which fails; the second component counts the calls. -/
def unlucky : Controller (Fifo × Nat) Unit where
  write h p := thirdFails (fifo.write h p)
  peek n := thirdFails (fifo.peek n)
  readInto n := thirdFails (fifo.readInto n)

theorem unlucky_delivers : Delivers unlucky (·.1.1) (·.1.2) where
  peek n s r s' h := by
    simp only [unlucky, thirdFails] at h
    split at h
    · obtain ⟨rfl, rfl⟩ := Prod.mk.inj h
      exact ⟨by simp, List.prefix_rfl, rfl, fun b h => by cases h⟩
    · obtain ⟨rfl, rfl⟩ := Prod.mk.inj h
      exact fifo_delivers.peek n s.1 _ _ rfl
  readInto n s r s' h := by
    simp only [unlucky, thirdFails] at h
    split at h
    · obtain ⟨rfl, rfl⟩ := Prod.mk.inj h
      exact ⟨by simp, List.prefix_rfl, fun _ _ => rfl, fun b h => by cases h⟩
    · obtain ⟨rfl, rfl⟩ := Prod.mk.inj h
      exact fifo_delivers.readInto n s.1 _ _ rfl

end Spec
