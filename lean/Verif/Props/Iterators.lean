import Verif.Props.Reports
import Verif.Spec.Iterators

/-! # C69: the iterators of received events, call by call -/

namespace Bt

open Spec

variable (c : Cfg) (V : Vendor) {ε : Type}

theorem fusedCalls_cons {α : Type} (x : α) (xs : List α) (n : Nat) :
    fusedCalls (x :: xs) (n + 1) = some x :: fusedCalls xs n := by
  simp [fusedCalls, List.range_succ_eq_map]

theorem fusedCalls_nil {α : Type} (n : Nat) : fusedCalls ([] : List α) (n + 1) = none :: fusedCalls [] n := by
  simp [fusedCalls, List.range_succ_eq_map]

theorem innerNext_none {d : List UInt8} {i j : Nat} (h : innerNext (VE := Empty) d i = .ok (none, j)) :
    j = i := by
  by_cases hl : d.length ≤ i
  · unfold innerNext at h
    rw [if_pos hl] at h
    cases h
    rfl
  · exfalso
    have hd : d = d.take i ++ d.drop i := (List.take_append_drop i d).symm
    have hi : (d.take i).length = i := by rw [List.length_take]; omega
    have h' := innerNext_append (VE := Empty) (d.take i) (d.drop i)
    rw [← hd, hi, h] at h'
    rcases innerNext_cases (VE := Empty) (d.drop i) with ⟨h0, -⟩ | ⟨a, rest, -, -, e⟩ | ⟨e, -, e'⟩ | ⟨-, -, e⟩
    · exact hl (List.drop_eq_nil_iff.mp h0)
    · rw [e] at h'; cases h'
    · rw [e'] at h'; cases h'
    · rw [e] at h'; cases h'

theorem completed_calls (e : NumberOfCompletedPackets) (n : Nat) :
    ∀ (i : Nat) (xs : List NumberOfCompletedPacketsPair), e.iterFrom (ε := ε) i = .ok xs →
      calls (e.iterNext (ε := ε)) n i = .ok (fusedCalls xs n) := by
  induction n with
  | zero => intro i xs _; rfl
  | succ n ih =>
    intro i xs h
    have h0 := h
    rw [NumberOfCompletedPackets.iterFrom_unfold] at h
    unfold calls
    cases hx : e.iterNext (ε := ε) i with
    | ok a =>
      obtain ⟨o, j⟩ := a
      rw [hx] at h
      cases o with
      | none =>
        cases h
        have hj : j = i := by
          unfold NumberOfCompletedPackets.iterNext at hx
          split at hx
          · cases hx; rfl
          · revert hx
            cases readU16From (ε := ε) e.dataBuf.val i <;> simp
            cases readU16From (ε := ε) e.dataBuf.val (i + 2) <;> simp
        subst hj
        simp only
        rw [ih _ _ h0, fusedCalls_nil]
      | some a =>
        simp only at h
        cases hr : e.iterFrom (ε := ε) j with
        | ok rest =>
          rw [hr] at h
          cases h
          simp only
          rw [ih _ _ hr, fusedCalls_cons]
        | err x => rw [hr] at h; cases h
        | panic => rw [hr] at h; cases h
    | err x => rw [hx] at h; cases h
    | panic => rw [hx] at h; cases h

theorem report_calls (r : LeAdvertisingReport) (n : Nat) :
    ∀ (i : Nat) (xs : List LeAdvertisement), r.iterFrom (ε := ε) i = .ok xs →
      calls (r.iterNext (ε := ε)) n i = .ok (fusedCalls xs n) := by
  induction n with
  | zero => intro i xs _; rfl
  | succ n ih =>
    intro i xs h
    have h0 := h
    rw [LeAdvertisingReport.iterFrom_unfold] at h
    unfold calls
    cases hx : r.iterNext (ε := ε) i with
    | ok a =>
      obtain ⟨o, j⟩ := a
      rw [hx] at h
      cases o with
      | none =>
        cases h
        have hj : j = i := by
          unfold LeAdvertisingReport.iterNext slice at hx
          split at hx
          · rw [Res.bind_ok] at hx
            cases hn : innerNext (VE := Empty) (List.drop 0 (List.take r.dataLen r.dataBuf.val)) i with
            | ok p =>
              rw [hn] at hx
              cases hx
              exact innerNext_none hn
            | err e => rw [hn] at hx; cases hx
            | panic => rw [hn] at hx; cases hx
          · cases hx
        subst hj
        simp only
        rw [ih _ _ h0, fusedCalls_nil]
      | some a =>
        simp only at h
        cases hr : r.iterFrom (ε := ε) j with
        | ok rest =>
          rw [hr] at h
          cases h
          simp only
          rw [ih _ _ hr, fusedCalls_cons]
        | err x => rw [hr] at h; cases h
        | panic => rw [hr] at h; cases h
    | err x => rw [hx] at h; cases h
    | panic => rw [hx] at h; cases h

/-- **C69.** Any number of calls of `next` on the iterator of a received Number Of Completed Packets event
return the pairs of the packet in order, and then `None` for ever; no call panics. -/
theorem C69_pairs (packet : List UInt8) (e : NumberOfCompletedPackets)
    (h : Event.new c V packet = .ok (.numberOfCompletedPackets e)) :
    ∃ (n : UInt8) (xs : List (UInt16 × UInt16)), packet = frame 0x13 (n :: pairsBytes xs) ∧
      ∀ m, calls (e.iterNext (ε := ε)) m 0 = .ok (fusedCalls (xs.map fun x => ⟨⟨x.1⟩, x.2.toNat⟩) m) := by
  obtain ⟨n, xs, h1, -, -, h2⟩ := C14_pairs (ε := ε) c V packet e h
  exact ⟨n, xs, h1, fun m => completed_calls e m 0 _ h2⟩

/-- Two pairs, asked for four times. -/
example : ∃ e, Event.new ⟨false, false⟩ demoVendor [0x13, 9, 2, 1, 2, 3, 4, 5, 6, 7, 8] =
      .ok (.numberOfCompletedPackets e) ∧
    calls (e.iterNext (ε := Empty)) 4 0 =
      .ok [some ⟨⟨0x0201⟩, 0x0403⟩, some ⟨⟨0x0605⟩, 0x0807⟩, none, none] := by
  obtain ⟨e, h1, h2⟩ := C14_every_list ⟨false, false⟩ demoVendor (ε := Empty)
    [(0x0201, 0x0403), (0x0605, 0x0807)] (by decide)
  exact ⟨e, h1, completed_calls e 4 0 _ h2⟩

/-- **C69.** Any number of calls of `next` on the iterator of a received LE Advertising Report return the
advertisements of the packet in order, and then `None` for ever; no call panics. -/
theorem C69_reports (packet : List UInt8) (r : LeAdvertisingReport)
    (h : Event.new c V packet = .ok (.leAdvertisingReport r)) :
    ∃ n as, packet = frame 0x3E (0x02 :: n :: advsBytes as) ∧ (∀ a ∈ as, Reportable a) ∧
      ∀ m, calls (r.iterNext (ε := ε)) m 0 = .ok (fusedCalls as m) := by
  obtain ⟨n, as, h1, ha, h2⟩ := C15_iteration (ε := ε) c V packet r h
  exact ⟨n, as, h1, ha, fun m => report_calls r m 0 _ h2⟩

/-- Two advertisements, asked for four times. -/
example : fusedCalls demoAdvs 4 = [demoAdvs[0]?, demoAdvs[1]?, none, none] ∧ demoAdvs.length = 2 ∧
    ∃ r, Event.new ⟨false, false⟩ demoVendor (frame 0x3E (0x02 :: 2 :: advsBytes demoAdvs)) =
      .ok (.leAdvertisingReport r) :=
  ⟨rfl, rfl, (C16_round_trip _ demoVendor (ε := Empty) 2 demoAdvs (by decide) (by decide)).imp fun _ h => h.1⟩

end Bt
