import Verif.Spec.Negotiated
import Verif.Lemmas.Acceptable

/-! # Lemmas: connection parameters asked for, chosen and reported -/

namespace Bt

open Spec

/-- The bytes of connection parameters, and what is chosen from them. -/
theorem chosen_bytes {x : ConnectionInterval} (hx : Built x) {pre post : List UInt8} {n : Nat}
    (hn : pre.length = n) {a l t : UInt16} (h : Chosen (pre ++ (connIntervalBytes x ++ post)) n a l t) :
    writtenInterval x.intervalMin.ns ≤ a.toNat ∧ a.toNat ≤ writtenInterval x.intervalMax.ns ∧
      l = x.connLatency ∧ t.toNat = units10ms x.supervisionTimeout.ns := by
  have hl := (built_iff x).mp hx
  have b2 := hl.order
  have b3 := hl.maxBound
  have b6 := hl.timeoutHigh
  have e1 : writtenInterval x.intervalMin.ns % 65536 = writtenInterval x.intervalMin.ns := by
    simp only [writtenInterval, ms, sec] at *; omega
  have e2 : writtenInterval x.intervalMax.ns % 65536 = writtenInterval x.intervalMax.ns := by
    simp only [writtenInterval, ms, sec] at *; omega
  have e3 : units10ms x.supervisionTimeout.ns % 65536 = units10ms x.supervisionTimeout.ns := by
    simp only [units10ms, ms, sec] at *; omega
  have e4 : x.connLatency.toNat % 65536 = x.connLatency.toNat := Nat.mod_eq_of_lt x.connLatency.toNat_lt
  have h0 : u16At (pre ++ (connIntervalBytes x ++ post)) n = u16At (connIntervalBytes x ++ post) 0 :=
    u16At_append_of (i := 0) hn
  unfold Chosen at h
  rw [h0, u16At_append_of hn, u16At_append_of hn, u16At_append_of hn] at h
  simp only [connIntervalBytes, le16, le_two, List.cons_append, List.nil_append, u16At_succ, u16At_zero,
    e1, e2, e3, e4] at h
  exact ⟨h.1, h.2.1, UInt16.toNat_inj.mp h.2.2.1, h.2.2.2⟩

/-- A choice of the interval, reported. -/
theorem chosen_reported {x : ConnectionInterval} {i : FixedConnectionInterval} {a l t : UInt16}
    (h1 : writtenInterval x.intervalMin.ns ≤ a.toNat) (h2 : a.toNat ≤ writtenInterval x.intervalMax.ns)
    (h3 : l = x.connLatency) (h4 : t.toNat = units10ms x.supervisionTimeout.ns)
    (hi : i.interval.ns = 1250 * us * a.toNat ∧ i.connLatency = l ∧ i.supervisionTimeout.ns = 10 * ms * t.toNat) :
    NearlyAsAsked x i ∧ (5 * ms ∣ x.intervalMin.ns → AsAsked x i) := by
  obtain ⟨i1, i2, i3⟩ := hi
  have g1 : x.intervalMin.ns < i.interval.ns + 2 * ms := by
    rw [i1]; simp only [writtenInterval, us, ms] at *; omega
  have g2 : i.interval.ns ≤ x.intervalMax.ns := by
    rw [i1]; simp only [writtenInterval, us, ms] at *; omega
  have g3 : i.supervisionTimeout.ns ≤ x.supervisionTimeout.ns ∧
      x.supervisionTimeout.ns < i.supervisionTimeout.ns + 10 * ms := by
    rw [i3]; simp only [units10ms, ms] at *; omega
  refine ⟨⟨g1, g2, i2.trans h3, g3.1, g3.2⟩, fun hd => ⟨?_, g2, i2.trans h3, g3.1, g3.2⟩⟩
  rw [i1]
  simp only [writtenInterval, us, ms] at *
  omega

/-- The smallest choice is too short if the lower bound is no multiple of 5 ms. -/
theorem smallest_too_short {x : ConnectionInterval} (h : ¬ 5 * ms ∣ x.intervalMin.ns) :
    1250 * us * writtenInterval x.intervalMin.ns < x.intervalMin.ns := by
  simp only [writtenInterval, us, ms] at *
  omega

/-- Every choice is legal, if the parameters are when cut off. -/
theorem chosen_legal {x : ConnectionInterval} (hx : Built x) (hw : LegalWhenWritten x)
    (ht : 110 * ms ≤ x.supervisionTimeout.ns) {a l t : UInt16}
    (h1 : writtenInterval x.intervalMin.ns ≤ a.toNat) (h2 : a.toNat ≤ writtenInterval x.intervalMax.ns)
    (h3 : l = x.connLatency) (h4 : t.toNat = units10ms x.supervisionTimeout.ns) :
    LegalRaw a.toNat a.toNat l.toNat t.toNat := by
  have hl := (built_iff x).mp hx
  obtain ⟨w1, w2⟩ := hw
  have b3 := hl.maxBound
  have b4 := hl.latencyBound
  have b6 := hl.timeoutHigh
  subst h3
  have hm : (1 + x.connLatency.toNat) * a.toNat ≤ (1 + x.connLatency.toNat) * writtenInterval x.intervalMax.ns :=
    Nat.mul_le_mul_left _ h2
  have hu : units10ms x.supervisionTimeout.ns ≤ 3200 := by
    simp only [units10ms, ms, sec] at *; omega
  refine ⟨?_, Nat.le_refl _, ?_, b4, by omega, by omega, ?_, by omega⟩
  · simp only [writtenInterval, ms, sec] at *; omega
  · simp only [writtenInterval, ms, sec] at *; omega
  · rw [h4]; simp only [units10ms, ms, sec] at *; omega

/-- The smallest choice. -/
theorem smallest_chosen {x : ConnectionInterval} (hx : Built x) {pre post : List UInt8} {n : Nat}
    (hn : pre.length = n) : ∃ a t, Chosen (pre ++ (connIntervalBytes x ++ post)) n a x.connLatency t ∧
      a.toNat = writtenInterval x.intervalMin.ns := by
  have hl := (built_iff x).mp hx
  have b2 := hl.order
  have b3 := hl.maxBound
  have b6 := hl.timeoutHigh
  have e1 : writtenInterval x.intervalMin.ns % 65536 = writtenInterval x.intervalMin.ns := by
    simp only [writtenInterval, ms, sec] at *; omega
  have e2 : writtenInterval x.intervalMax.ns % 65536 = writtenInterval x.intervalMax.ns := by
    simp only [writtenInterval, ms, sec] at *; omega
  have e3 : units10ms x.supervisionTimeout.ns % 65536 = units10ms x.supervisionTimeout.ns := by
    simp only [units10ms, ms, sec] at *; omega
  have e4 : x.connLatency.toNat % 65536 = x.connLatency.toNat := Nat.mod_eq_of_lt x.connLatency.toNat_lt
  have e5 : writtenInterval x.intervalMin.ns ≤ writtenInterval x.intervalMax.ns := by
    simp only [writtenInterval, ms, sec] at *; omega
  have f1 : (UInt16.ofNat (writtenInterval x.intervalMin.ns)).toNat = writtenInterval x.intervalMin.ns := by
    rw [UInt16.toNat_ofNat']; exact e1
  have f3 : (UInt16.ofNat (units10ms x.supervisionTimeout.ns)).toNat = units10ms x.supervisionTimeout.ns := by
    rw [UInt16.toNat_ofNat']; exact e3
  refine ⟨.ofNat (writtenInterval x.intervalMin.ns), .ofNat (units10ms x.supervisionTimeout.ns), ?_, f1⟩
  have h0 : u16At (pre ++ (connIntervalBytes x ++ post)) n = u16At (connIntervalBytes x ++ post) 0 :=
    u16At_append_of (i := 0) hn
  unfold Chosen
  rw [h0, u16At_append_of hn, u16At_append_of hn, u16At_append_of hn, f1, f3]
  simp only [connIntervalBytes, le16, le_two, List.cons_append, List.nil_append, u16At_succ, u16At_zero,
    e1, e2, e3, e4]
  exact ⟨Nat.le_refl _, e5, trivial, trivial⟩

/-- The parameters of LE Create Connection up to the connection interval. -/
theorem create_bytes (p : ConnectionParameters) : ∃ pre, pre.length = 13 ∧
    cmdParams (VS := Empty) (.leCreateConnection p) =
      pre ++ (connIntervalBytes p.connInterval ++ connLengthBytes p.expectedConnectionLength) := by
  refine ⟨scanWindowBytes p.scanWindow ++
      (match p.initiatorFilterPolicy with
        | .useAddress => 0 :: peerBytes p.peerAddress
        | .whiteList => 1 :: zeroes 7) ++ [ownAddressCode p.ownAddressType], ?_, ?_⟩
  · cases p.initiatorFilterPolicy
    · cases p.peerAddress <;> simp [scanWindowBytes, peerBytes, Arr.len]
    · simp [scanWindowBytes, zeroes]
  · simp only [cmdParams, List.append_assoc]
    rfl

/-- The fields of LE Connection Update Complete are determined by its bytes. -/
theorem update_fields {st st' : UInt8} {h h' a a' l l' t t' : UInt16}
    (hr : (0x03 :: st :: le16 h ++ le16 a ++ le16 l ++ le16 t : List UInt8) =
      0x03 :: st' :: le16 h' ++ le16 a' ++ le16 l' ++ le16 t') : a = a' ∧ l = l' ∧ t = t' := by
  simp only [List.cons_append, List.cons.injEq, true_and, List.append_assoc] at hr
  obtain ⟨-, hr⟩ := hr
  obtain ⟨-, hr⟩ := List.append_inj hr (by simp)
  obtain ⟨h1, hr⟩ := List.append_inj hr (by simp)
  obtain ⟨h2, hr⟩ := List.append_inj hr (by simp)
  exact ⟨le16_inj h1, le16_inj h2, le16_inj hr⟩

/-- The fields of LE Connection Complete are determined by its bytes. -/
theorem create_fields {st st' r r' c c' : UInt8} {h h' a a' l l' t t' : UInt16} {p p' : BdAddrType}
    (hr : (0x01 :: st :: le16 h ++ r :: addrTypeBytes p ++ le16 a ++ le16 l ++ le16 t ++ [c] : List UInt8) =
      0x01 :: st' :: le16 h' ++ r' :: addrTypeBytes p' ++ le16 a' ++ le16 l' ++ le16 t' ++ [c']) :
    a = a' ∧ l = l' ∧ t = t' := by
  have hl : ∀ q : BdAddrType, (addrTypeBytes q).length = 7 := by
    intro q; cases q <;> simp [addrTypeBytes, Arr.len]
  simp only [List.cons_append, List.cons.injEq, true_and, List.append_assoc] at hr
  obtain ⟨-, hr⟩ := hr
  obtain ⟨-, hr⟩ := List.append_inj hr (by simp)
  simp only [List.cons.injEq] at hr
  obtain ⟨-, hr⟩ := hr
  obtain ⟨-, hr⟩ := List.append_inj hr (by rw [hl, hl])
  obtain ⟨h1, hr⟩ := List.append_inj hr (by simp)
  obtain ⟨h2, hr⟩ := List.append_inj hr (by simp)
  obtain ⟨h3, -⟩ := List.append_inj hr (by simp)
  exact ⟨le16_inj h1, le16_inj h2, le16_inj h3⟩

end Bt
