import Verif.Lemmas.Account
import Verif.Props.Ledger

/-! # C88: what the account says about a history

The account of the controller, which by `C88_uart_partial` and `C88_event_link_partial` is that of the application,
told from the history. -/

namespace Bt

open Spec

/-- **C88**: a connection that was announced is in the table with the parameters last announced, as long as no event
begins or ends a connection with its handle; it is encrypted as last announced; the count of its data packets is the
sum of the numbers reported since; and the lengths of data packets are those last announced. -/
theorem C88_open (L : Ledger) (before after : List StdEvent) (x : StdEvent) (h : Nat) (y : Connection) (enc : Bool)
    (hx : x.opens = some (h, y, enc)) (ha : ∀ z ∈ after, ¬ z.BeginsOrEnds h) :
    let A := (before ++ x :: after).foldl Ledger.send L
    A.links h = some (((lastOf (StdEvent.changes h) after).map fun p => y.update p.1 p.2.1 p.2.2).getD y) ∧
    A.encrypted h = (lastOf (StdEvent.encrypts h) after).getD enc ∧
    A.completed h = (after.map (StdEvent.sentFor h)).sum ∧
    A.lengths h = lastOf (StdEvent.resizes h) after := by
  intro A
  have hA : A = after.foldl Ledger.send ((before.foldl Ledger.send L).send x) := by simp [A]
  generalize before.foldl Ledger.send L = M at hA
  have hM : M.send x = M.begin h y enc := by
    cases x <;> simp only [StdEvent.opens, reduceCtorEq] at hx <;> split at hx <;> cases hx
    all_goals next hs => simp only [Ledger.send, hs, if_true]
  rw [hA, hM]
  refine ⟨?_, ?_, ?_, ?_⟩
  · rw [fold_links after ha]
    simp [Ledger.begin, upd_self]
  · rw [fold_set (fun L => L.encrypted h) (StdEvent.encrypts h) (fun z => ¬ z.BeginsOrEnds h)
      (fun L z hz => (send_other hz L).2.1) after ha]
    simp [Ledger.begin, upd_self]
  · rw [fold_completed after ha]
    simp [Ledger.begin, upd_self]
  · rw [fold_set (fun L => L.lengths h) (fun z => (z.resizes h).map some) (fun z => ¬ z.BeginsOrEnds h)
      (fun L z hz => (send_other hz L).2.2.1) after ha]
    have : lastOf (fun z => (z.resizes h).map some) after = (lastOf (StdEvent.resizes h) after).map some := by
      unfold lastOf
      rw [← List.map_filterMap, List.getLast?_map]
    rw [this]
    cases lastOf (StdEvent.resizes h) after <;> simp [Ledger.begin, upd_self]

/-- A connection, three data packets, a change of its parameters, two more packets, and events about another one. -/
example : let after : List StdEvent := [.completedPackets [(64, 1), (65, 7), (64, 2)], .leConnectionUpdate 0 64 24 1 100,
      .disconnection 0 65 0x13, .completedPackets [(64, 2)]]
    (StdEvent.leConnection 0 64 0 0 ⟨[1, 2, 3, 4, 5, 6], rfl⟩ 6 0 20 0).opens =
      some (64, .le true [1, 2, 3, 4, 5, 6] false 7500000 0 200000000, false) ∧
    (∀ z ∈ after, ¬ z.BeginsOrEnds 64) ∧ (after.map (StdEvent.sentFor 64)).sum = 5 ∧
    lastOf (StdEvent.changes 64) after = some (30000000, 1, 1000000000) ∧ lastOf (StdEvent.encrypts 64) after = none := by
  refine ⟨by decide, ?_, by decide, by decide, by decide⟩
  simp [StdEvent.BeginsOrEnds]

/-- **C88**: a connection that has ended is not in the table, is not encrypted and has no data packets, until one with
its handle begins. -/
theorem C88_closed (L : Ledger) (before after : List StdEvent) (h : UInt16) (r : UInt8)
    (ha : ∀ z ∈ after, ¬ z.BeginsOrEnds h.toNat) :
    let A := (before ++ .disconnection 0 h r :: after).foldl Ledger.send L
    A.links h.toNat = none ∧ A.encrypted h.toNat = (lastOf (StdEvent.encrypts h.toNat) after).getD false ∧
      A.completed h.toNat = (after.map (StdEvent.sentFor h.toNat)).sum := by
  intro A
  have hA : A = after.foldl Ledger.send ((before.foldl Ledger.send L).finish h.toNat) := by
    simp [A, Ledger.send]
  rw [hA]
  refine ⟨?_, ?_, ?_⟩
  · rw [fold_links after ha]
    simp [Ledger.finish, upd_self]
  · rw [fold_set (fun L => L.encrypted h.toNat) (StdEvent.encrypts h.toNat) (fun z => ¬ z.BeginsOrEnds h.toNat)
      (fun L z hz => (send_other hz L).2.1) after ha]
    simp [Ledger.finish, upd_self]
  · rw [fold_completed after ha]
    simp [Ledger.finish, upd_self]

example : ∀ z ∈ [StdEvent.leConnection 0 65 0 0 ⟨[1, 2, 3, 4, 5, 6], rfl⟩ 6 0 20 0, .disconnection 2 64 0x13],
    ¬ z.BeginsOrEnds (64 : UInt16).toNat := by
  simp [StdEvent.BeginsOrEnds]

/-- **C88**: a handle that no event names is not in the table; nothing is known of it. -/
theorem C88_unknown (xs : List StdEvent) (h : Nat) (hx : ∀ z ∈ xs, ¬ z.BeginsOrEnds h) :
    (xs.foldl Ledger.send {}).links h = none := by
  rw [fold_links xs hx]
  rfl

example : ∀ z ∈ ledgerSession, ¬ z.BeginsOrEnds 66 := by simp [ledgerSession, StdEvent.BeginsOrEnds]

/-- **C88**: the number of commands allowed is the one last announced; at first it is one. -/
theorem C88_allowed (xs : List StdEvent) :
    (xs.foldl Ledger.send {}).allowed = (lastOf StdEvent.allows xs).getD 1 := by
  rw [fold_set (fun L => L.allowed) StdEvent.allows (fun _ => True) ?_ xs (fun _ _ => trivial)]
  intro L x _
  cases x <;> simp only [Ledger.send, StdEvent.allows, Option.getD_some, Option.getD_none]
  all_goals first | rfl | (split <;> rfl)

example : lastOf StdEvent.allows ledgerSession = some 4 := by decide

end Bt
