import Verif.Spec.Target
import Verif.Lemmas.ReportHelper

/-! # Arithmetic on `usize` that does not overflow -/

namespace Bt
open Spec

variable (t : Target) {ε : Type}

theorem target_half : 32768 ≤ 2 ^ (t.bits - 1) ∧ 2 ^ t.bits = 2 * 2 ^ (t.bits - 1) := by
  have h := t.atLeast16
  constructor
  · have := Nat.pow_le_pow_right (n := 2) (by omega) (show 15 ≤ t.bits - 1 by omega)
    omega
  · obtain ⟨b, hb⟩ : ∃ b, t.bits = b + 1 := ⟨t.bits - 1, by omega⟩
    rw [hb, Nat.add_sub_cancel, Nat.pow_succ, Nat.mul_comm]

theorem target_word {n : Nat} (h : n < 2 ^ (t.bits - 1) + 32768) : t.word (ε := ε) n = .ok n := by
  have := target_half t
  rw [Target.word, if_pos (by omega)]

theorem target_add {a b : Nat} (h : a + b < 2 ^ (t.bits - 1) + 32768) : t.add (ε := ε) a b = .ok (a + b) :=
  target_word t h

theorem target_mul {a b : Nat} (h : a * b < 32768) : t.mul (ε := ε) a b = .ok (a * b) :=
  target_word t (Nat.lt_of_lt_of_le h (Nat.le_add_left _ _))

theorem target_sub {a b : Nat} (h : b ≤ a) : t.sub (ε := ε) a b = .ok (a - b) := by
  rw [Target.sub, if_pos h]

theorem target_fullLength (packet : List UInt8) : t.fullLength (ε := ε) packet = fullLength packet := by
  unfold Target.fullLength fullLength
  congr 1
  funext b
  have := b.toNat_lt
  exact target_add t (by have := target_half t; simp only [PACKET_HEADER_LENGTH]; omega)

theorem target_completed (V : Vendor) (payload : List UInt8) :
    t.toNumberOfCompletedPackets V payload = toNumberOfCompletedPackets V payload := by
  unfold Target.toNumberOfCompletedPackets toNumberOfCompletedPackets
  have hh := target_half t
  have h : ∀ n : UInt8, n.toNat * NUM_COMPLETED_PACKETS_PAIR_LEN < 32768 - 1 := by
    intro n; have := n.toNat_lt; simp only [NUM_COMPLETED_PACKETS_PAIR_LEN]; omega
  have hm : ∀ n : UInt8, t.mul (ε := V.EvErr) n.toNat NUM_COMPLETED_PACKETS_PAIR_LEN =
      .ok (n.toNat * NUM_COMPLETED_PACKETS_PAIR_LEN) := fun n => target_mul t (by have := h n; omega)
  have ha : ∀ n : UInt8, t.add (ε := V.EvErr) 1 (n.toNat * NUM_COMPLETED_PACKETS_PAIR_LEN) =
      .ok (1 + n.toNat * NUM_COMPLETED_PACKETS_PAIR_LEN) := fun n => target_add t (by have := h n; omega)
  simp only [hm, Res.bind_ok, ha]

theorem target_innerNext {VE : Type} {d : List UInt8} {i : Nat} (hd : d.length < 2 ^ (t.bits - 1)) :
    t.innerNext (VE := VE) d i = innerNext d i := by
  unfold Target.innerNext innerNext
  split
  · rfl
  · rename_i h
    have hn : ∀ n : UInt8, n.toNat < 256 := fun n => n.toNat_lt
    rw [target_add t (by omega), Res.bind_ok, target_add t (by omega), Res.bind_ok, target_add t (by omega),
      Res.bind_ok]
    simp only [Nat.add_assoc, Nat.reduceAdd]
    congr 1
    funext n
    have := hn n
    rw [target_add t (by omega), Res.bind_ok, target_add t (by omega), Res.bind_ok, target_add t (by omega),
      Res.bind_ok]
    simp only [Nat.add_assoc, Nat.reduceAdd]

theorem target_checkLoop {VE : Type} {d : List UInt8} (hd : d.length < 2 ^ (t.bits - 1)) (i : Nat) :
    t.checkLoop (VE := VE) d i = checkLoop d i := by
  unfold Target.checkLoop checkLoop
  rw [target_innerNext t hd]
  cases h : innerNext (VE := VE) d i with
  | ok p =>
    obtain ⟨o, j⟩ := p
    cases o with
    | none => simp only
    | some a =>
      have := innerNext_advances h
      simp only
      rw [dif_pos this]
      exact target_checkLoop hd j
  | err e => simp only
  | panic => simp only
termination_by d.length - i
decreasing_by omega

theorem target_report {VE : Type} {payload : List UInt8} (hp : InMemory t payload) :
    t.toLeAdvertisingReport (VE := VE) payload = toLeAdvertisingReport payload := by
  unfold InMemory at hp
  unfold Target.toLeAdvertisingReport toLeAdvertisingReport sliceFrom
  split
  · rename_i h
    simp only [Res.bind_ok]
    rw [target_checkLoop t (by rw [List.length_drop]; omega), target_sub t h]
    rfl
  · rfl

theorem target_meta (c : Cfg) (V : Vendor) {payload : List UInt8} (hp : InMemory t payload) :
    t.toLeMetaEvent c V payload = toLeMetaEvent c V payload := by
  unfold Target.toLeMetaEvent toLeMetaEvent
  rw [target_report t hp]
  rfl

theorem target_new (c : Cfg) (V : Vendor) {packet : List UInt8} (hp : InMemory t packet) :
    t.newEvent c V packet = Event.new c V packet := by
  unfold Target.newEvent Event.new
  simp only [target_fullLength, target_completed]
  congr 1; funext _
  congr 1; funext n
  congr 1; funext _
  congr 1; funext e
  congr 1; funext m
  cases hs : slice (ε := V.EvErr) packet PACKET_HEADER_LENGTH m with
  | ok payload =>
    have : InMemory t payload := by
      unfold InMemory at hp ⊢
      unfold slice at hs
      split at hs
      · cases hs; rw [List.length_drop, List.length_take]; omega
      · cases hs
    simp only [Res.bind_ok]
    rw [target_meta t c V this]
    rfl
  | err e => rfl
  | panic => rfl

theorem target_reportNext (r : LeAdvertisingReport) (i : Nat) :
    t.reportNext (ε := ε) r i = r.iterNext i := by
  unfold Target.reportNext LeAdvertisingReport.iterNext slice
  split
  · rw [Res.bind_ok, Res.bind_ok, target_innerNext t]
    rw [List.length_drop, List.length_take, r.dataBuf.len]
    have := target_half t
    simp only [MAX_ADVERTISING_REPORT_LEN]
    omega
  · rfl

theorem target_completedNext (e : NumberOfCompletedPackets) (he : e.numHandles < 256) (i : Nat) :
    t.completedNext (ε := ε) e i = e.iterNext i := by
  unfold Target.completedNext NumberOfCompletedPackets.iterNext
  have := target_half t
  have h4 : NUM_COMPLETED_PACKETS_PAIR_LEN = 4 := rfl
  have hx : e.numHandles * NUM_COMPLETED_PACKETS_PAIR_LEN ≤ 1020 := by rw [h4]; omega
  rw [target_mul t (by omega), Res.bind_ok]
  by_cases h : e.numHandles * NUM_COMPLETED_PACKETS_PAIR_LEN ≤ i
  · rw [if_pos h, if_pos h]
  · rw [if_neg h, if_neg h, target_add t (by omega), Res.bind_ok, target_add t (by omega)]
    rfl

theorem ctl_congr {σ ε α β : Type} {x : Ctl σ ε α} {f g : α → Ctl σ ε β} (h : ∀ a, f a = g a) :
    (x >>= f) = (x >>= g) := by
  rw [funext h]

theorem lift_ok_bind {σ ε α β : Type} (a : α) (f : α → Ctl σ ε β) : (Ctl.lift (.ok a) >>= f) = f a := rfl

theorem lift_slice_congr {σ ε α : Type} {buf : List UInt8} {a n : Nat} {f g : List UInt8 → Ctl σ ε α}
    (h : ∀ p : List UInt8, p.length ≤ n → f p = g p) :
    (Ctl.lift (slice buf a n) >>= f) = (Ctl.lift (slice buf a n) >>= g) := by
  cases hs : slice (ε := ε) buf a n with
  | ok p =>
    have hl : p.length ≤ n := by
      unfold slice at hs
      split at hs
      · cases hs; rw [List.length_drop, List.length_take]; omega
      · cases hs
    exact h p hl
  | err e => rfl
  | panic => rfl

theorem reportStep_bound (dataLen : Nat) (buf : List UInt8) (a : LeAdvertisement) {n : Nat} {buf' : List UInt8}
    (h : reportStep (ε := ε) dataLen buf a = .ok (n, buf')) : n ≤ buf.length ∧ buf'.length = buf.length := by
  unfold reportStep at h
  simp only at h
  rcases setByte_cases (ε := ε) buf dataLen a.eventType.asU8 with ⟨e, -⟩ | ⟨b1, e, l1, -⟩
  · rw [e] at h; cases h
  rw [e, Res.bind_ok] at h
  rcases withAddr_cases (ε := ε) b1 (1 + dataLen) (7 + (1 + dataLen)) a.address with e | ⟨b2, e, l2⟩
  · rw [e] at h; cases h
  rw [e, Res.bind_ok] at h
  rcases setByte_cases (ε := ε) b2 (7 + (1 + dataLen)) (UInt8.ofNat a.data.length) with ⟨e, -⟩ | ⟨b3, e, l3, -⟩
  · rw [e] at h; cases h
  rw [e, Res.bind_ok] at h
  rcases copyRange_cases (ε := ε) b3 (1 + (7 + (1 + dataLen))) (1 + (7 + (1 + dataLen)) + a.data.length) a.data with
    e | ⟨b4, e, l4⟩
  · rw [e] at h; cases h
  rw [e, Res.bind_ok] at h
  rcases setByte_cases (ε := ε) b4 (1 + (7 + (1 + dataLen)) + a.data.length) (a.rssi.getD 127).toUInt8 with
    ⟨e, -⟩ | ⟨b5, e, l5, h5⟩
  · rw [e] at h; cases h
  rw [e, Res.bind_ok] at h
  cases h
  omega

theorem target_reportStep {dataLen : Nat} {buf : List UInt8} {a : LeAdvertisement} (h : dataLen ≤ 253)
    (ha : InMemory t a.data) : t.reportStep (ε := ε) dataLen buf a = reportStep dataLen buf a := by
  unfold InMemory at ha
  have := target_half t
  unfold Target.reportStep reportStep
  simp only
  rw [target_add t (by omega), Res.bind_ok, target_add t (by omega), Res.bind_ok, target_add t (by omega),
    Res.bind_ok, target_add t (by omega), Res.bind_ok, target_add t (by omega)]
  rfl

theorem target_reportLoop {as : List LeAdvertisement} (ha : ∀ a ∈ as, InMemory t a.data) :
    ∀ {dataLen : Nat} {buf : List UInt8}, dataLen ≤ 253 → buf.length = 253 →
      t.reportLoop (ε := ε) as dataLen buf = reportLoop as dataLen buf := by
  induction as with
  | nil => intro _ _ _ _; rfl
  | cons a as ih =>
    intro dataLen buf h hb
    unfold Target.reportLoop reportLoop
    rw [target_reportStep t h (ha a (by simp))]
    cases hs : reportStep (ε := ε) dataLen buf a with
    | ok p =>
      obtain ⟨n, buf'⟩ := p
      have := reportStep_bound _ _ _ hs
      simp only [Res.bind_ok]
      exact ih (fun b hb => ha b (by simp [hb])) (by omega) (by omega)
    | err e => rfl
    | panic => rfl

theorem target_helper {as : List LeAdvertisement} (ha : ∀ a ∈ as, InMemory t a.data) :
    t.reportWithAdvertisements (ε := ε) as = reportWithAdvertisements as := by
  unfold Target.reportWithAdvertisements reportWithAdvertisements
  rw [target_reportLoop t ha (by omega) (by simp [Arr.len, MAX_ADVERTISING_REPORT_LEN])]

theorem target_adLen {a : Advertisement} (h : InMemory t (borrowed a)) : t.adLen (ε := ε) a = .ok a.len := by
  unfold InMemory borrowed at h
  have := target_half t
  unfold Target.adLen Advertisement.len
  cases a <;> simp only at h ⊢
  · rw [Res.bind_ok, target_add t (by omega)]
  all_goals rw [target_add t (by omega), Res.bind_ok, target_add t (by omega)]

theorem target_adCopy {a : Advertisement} (h : InMemory t (borrowed a)) (bytes : List UInt8) :
    t.adCopyIntoSlice (ε := ε) a bytes = a.copyIntoSlice bytes := by
  unfold Target.adCopyIntoSlice Advertisement.copyIntoSlice
  have hl : 1 ≤ a.len := by unfold Advertisement.len; split <;> omega
  rw [target_adLen t h, Res.bind_ok, target_sub t hl, Res.bind_ok]
  unfold InMemory borrowed at h
  have := target_half t
  congr 1; funext b1
  congr 1; funext b2
  cases a <;> simp only at h ⊢ <;> rw [target_add t (by omega)] <;> rfl

end Bt
