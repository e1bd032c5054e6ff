import Verif.Spec.Account

/-! # The account of a history -/

namespace Bt

open Spec

theorem upd_self {α : Type} (f : Nat → α) (h : Nat) (x : α) : upd f h x h = x := by simp [upd]

theorem upd_other {α : Type} (f : Nat → α) {h i : Nat} (x : α) (hi : i ≠ h) : upd f h x i = f i := by simp [upd, hi]

/-- A field that the events set. -/
theorem fold_set {α : Type} (f : Ledger → α) (g : StdEvent → Option α) (P : StdEvent → Prop)
    (hg : ∀ L x, P x → f (L.send x) = (g x).getD (f L)) (xs : List StdEvent) (hp : ∀ x ∈ xs, P x) (L : Ledger) :
    f (xs.foldl Ledger.send L) = (lastOf g xs).getD (f L) := by
  induction xs generalizing L with
  | nil => rfl
  | cons x xs ih =>
    rw [List.foldl_cons, ih (fun y hy => hp y (by simp [hy])), hg L x (hp x (by simp))]
    unfold lastOf
    rw [List.filterMap_cons]
    cases hx : g x with
    | none => rfl
    | some v =>
      simp only [Option.getD_some]
      rw [List.getLast?_cons]
      cases (xs.filterMap g).getLast? <;> rfl

theorem complete_at (xs : List (UInt16 × UInt16)) (f : Nat → Nat) (h : Nat) :
    (xs.map fun x => (x.1.toNat, x.2.toNat)).foldl (fun f x => upd f x.1 (f x.1 + x.2)) f h =
      f h + ((xs.filter fun x => x.1.toNat = h).map fun x => x.2.toNat).sum := by
  induction xs generalizing f with
  | nil => rfl
  | cons x xs ih =>
    rw [List.map_cons, List.foldl_cons, ih]
    by_cases hx : x.1.toNat = h
    · subst hx
      rw [upd_self]
      simp [Nat.add_assoc]
    · rw [upd_other _ _ (fun h' => hx h'.symm)]
      simp [hx]

theorem update_update (a b : Nat × Nat × Nat) (x : Connection) :
    (x.update a.1 a.2.1 a.2.2).update b.1 b.2.1 b.2.2 = x.update b.1 b.2.1 b.2.2 := by
  cases x <;> rfl

/-- One event, for a connection that it does not begin or end. -/
theorem send_other {h : Nat} {x : StdEvent} (hx : ¬ x.BeginsOrEnds h) (L : Ledger) :
    (L.send x).completed h = L.completed h + x.sentFor h ∧
    (L.send x).encrypted h = (x.encrypts h).getD (L.encrypted h) ∧
    (L.send x).lengths h = ((x.resizes h).map some).getD (L.lengths h) ∧
    (L.send x).links h = (L.links h).map fun y =>
      ((x.changes h).map fun p => y.update p.1 p.2.1 p.2.2).getD y := by
  cases x <;> simp only [StdEvent.BeginsOrEnds, Ledger.send, StdEvent.sentFor, StdEvent.encrypts,
    StdEvent.resizes, StdEvent.changes, Option.getD_none, Option.map_none, Nat.add_zero] at hx ⊢
  case connection st h' a lt enc =>
    split
    · next hs =>
      have : h ≠ h'.toNat := fun e => hx ⟨hs, e.symm⟩
      simp [Ledger.begin, upd_other _ _ this]
    · simp
  case disconnection st h' r =>
    split
    · next hs =>
      have : h ≠ h'.toNat := fun e => hx ⟨hs, e.symm⟩
      simp [Ledger.finish, upd_other _ _ this]
    · simp
  case leConnection st h' _ _ _ _ _ _ _ =>
    split
    · next hs =>
      have : h ≠ h'.toNat := fun e => hx ⟨hs, e.symm⟩
      simp [Ledger.begin, upd_other _ _ this]
    · simp
  case encryptionChange st h' e =>
    by_cases hs : st = 0
    · by_cases hh : h'.toNat = h
      · subst hh; simp [hs, upd_self]
      · simp [hs, hh, upd_other _ _ (Ne.symm hh)]
    · simp [hs]
  case completedPackets xs => exact ⟨complete_at _ _ _, rfl, rfl, by simp [Ledger.complete]⟩
  case leConnectionUpdate st h' a l t =>
    by_cases hs : st = 0
    · by_cases hh : h'.toNat = h
      · subst hh; simp [hs, Ledger.change, upd_self]
      · simp [hs, hh, Ledger.change, upd_other _ _ (Ne.symm hh)]
    · simp [hs]
  case leDataLength h' a b d e =>
    by_cases hh : h'.toNat = h
    · subst hh; simp [upd_self]
    · simp [hh, upd_other _ _ (Ne.symm hh)]
  all_goals simp

theorem fold_completed {h : Nat} (xs : List StdEvent) (hx : ∀ x ∈ xs, ¬ x.BeginsOrEnds h) (L : Ledger) :
    (xs.foldl Ledger.send L).completed h = L.completed h + (xs.map (StdEvent.sentFor h)).sum := by
  induction xs generalizing L with
  | nil => rfl
  | cons x xs ih =>
    rw [List.foldl_cons, ih (fun y hy => hx y (by simp [hy])), (send_other (hx x (by simp)) L).1]
    simp [Nat.add_assoc]

theorem fold_links {h : Nat} (xs : List StdEvent) (hx : ∀ x ∈ xs, ¬ x.BeginsOrEnds h) (L : Ledger) :
    (xs.foldl Ledger.send L).links h = (L.links h).map fun y =>
      ((lastOf (StdEvent.changes h) xs).map fun p => y.update p.1 p.2.1 p.2.2).getD y := by
  induction xs generalizing L with
  | nil => cases h' : L.links h <;> simp [lastOf, h']
  | cons x xs ih =>
    rw [List.foldl_cons, ih (fun y hy => hx y (by simp [hy])), (send_other (hx x (by simp)) L).2.2.2]
    unfold lastOf
    rw [List.filterMap_cons]
    cases L.links h with
    | none => rfl
    | some y =>
      cases hc : x.changes h with
      | none => simp
      | some p =>
        simp only [Option.map_some, Option.getD_some, List.getLast?_cons]
        cases (xs.filterMap (StdEvent.changes h)).getLast? with
        | none => rfl
        | some q => simp [update_update]

end Bt
