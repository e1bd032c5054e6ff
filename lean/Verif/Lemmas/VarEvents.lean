import Verif.Lemmas.AdvReports

/-! # Events of variable length: LE advertising reports and numbers of completed packets -/

namespace Bt

open Spec

/-- The buffer that holds `bs` followed by zeros. -/
def zeroPadded (n : Nat) (bs : List UInt8) (h : bs.length ≤ n) : Arr n :=
  ⟨bs ++ zeroes (n - bs.length), by simp [zeroes]; omega⟩

theorem inZeroes_iff {n : Nat} (buf : Arr n) (bs : List UInt8) (h : bs.length ≤ n) :
    InZeroes buf bs ↔ buf = zeroPadded n bs h := by
  constructor
  · intro hz; exact Arr.ext' hz
  · rintro rfl; rfl

theorem copyRange_zero {ε : Type} (n : Nat) (bs : List UInt8) (h : bs.length ≤ n) :
    copyRange (ε := ε) (Arr.zero n).val 0 bs.length bs = .ok (zeroPadded n bs h).val := by
  rw [copyRange_of_le (by omega) (by simp [Arr.zero]; omega) (by simp)]
  simp [Arr.zero, zeroPadded, zeroes]

theorem toArr_val {ε : Type} {n : Nat} (a : Arr n) : toArr (ε := ε) n a.val = .ok a := by
  rw [toArr_of_eq a.len]

section
variable {VE : Type}

theorem report_eq (sub n : UInt8) (bs : List UInt8) (h : bs.length ≤ 253) :
    toLeAdvertisingReport (VE := VE) (sub :: n :: bs) =
      (checkLoop (VE := VE) bs 0 >>= fun _ => .ok ⟨bs.length, zeroPadded MAX_ADVERTISING_REPORT_LEN bs h⟩) := by
  unfold toLeAdvertisingReport
  have e1 {ε : Type} : sliceFrom (ε := ε) (sub :: n :: bs) 2 = .ok bs := by simp [sliceFrom]
  have e2 : (sub :: n :: bs).length - 2 = bs.length := by simp
  rw [e1, Res.bind_ok]
  cases checkLoop (VE := VE) bs 0 with
  | err e => rfl
  | panic => rfl
  | ok u =>
    simp only [Res.bind_ok]
    rw [e2, copyRange_zero MAX_ADVERTISING_REPORT_LEN bs h, Res.bind_ok, toArr_val]
    rfl

theorem report_one (sub : UInt8) : toLeAdvertisingReport (VE := VE) [sub] = .panic := rfl

theorem reports_cases (bs : List UInt8) :
    (∃ as, (∀ a ∈ as, Reportable a) ∧ bs = advsBytes as ∧ checkLoop (VE := VE) bs 0 = .ok ()) ∨
    (∃ as ts e, (∀ a ∈ as, Reportable a) ∧ bs = advsBytes as ++ ts ∧ ReportFault ts e ∧
      checkLoop (VE := VE) bs 0 = .err e) ∨
    (∃ as ts, (∀ a ∈ as, Reportable a) ∧ bs = advsBytes as ++ ts ∧ 0 < ts.length ∧ ts.length < 9 ∧
      checkLoop (VE := VE) bs 0 = .panic) :=
  checkLoop_cases (VE := VE) bs.length [] bs (Nat.le_refl _)

theorem checkLoop_ok (as : List LeAdvertisement) (h : ∀ a ∈ as, Reportable a) :
    checkLoop (VE := VE) (advsBytes as) 0 = .ok () := by
  have := checkLoop_advs (VE := VE) [] as h []
  simp only [List.nil_append, List.append_nil, List.length_nil] at this
  rw [this, checkLoop_unfold]
  have := innerNext_append (VE := VE) (advsBytes as) []
  rw [List.append_nil] at this
  rw [this]
  rfl

theorem checkLoop_cut (as : List LeAdvertisement) (h : ∀ a ∈ as, Reportable a) (ts : List UInt8)
    (h0 : 0 < ts.length) (h9 : ts.length < 9) :
    checkLoop (VE := VE) (advsBytes as ++ ts) 0 = .panic := by
  have := checkLoop_advs (VE := VE) [] as h ts
  simp only [List.nil_append, List.length_nil] at this
  rw [this, checkLoop_unfold, innerNext_append, innerNext_short ts h0 h9]
  rfl

theorem innerNext_fault {ts : List UInt8} {e : EvError VE} (h : ReportFault ts e) :
    innerNext (VE := VE) ts 0 = .err e := by
  cases h with
  | incomplete h8 hl => exact innerNext_incomplete ts _ h8 hl
  | eventType h8 hl h0 h4 =>
    obtain ⟨t, k, b, data, r, rest, hn, rfl⟩ := report_shape ts _ h8 hl
    obtain rfl := Option.some.inj h0
    rw [innerNext_report _ _ _ _ _ _ _ hn, (advEvent_err _ _).mpr ⟨h4, rfl⟩]
    rfl
  | addressType h8 hl h0 h4 h1 hk =>
    obtain ⟨t, k, b, data, r, rest, hn, rfl⟩ := report_shape ts _ h8 hl
    obtain rfl := Option.some.inj h0
    obtain rfl := Option.some.inj h1
    rw [innerNext_report _ _ _ _ _ _ _ hn]
    cases ht : AdvertisementEvent.tryFrom (VE := VE) t with
    | ok ty => rw [(addrType_err _ _ _).mpr ⟨hk, rfl⟩]; rfl
    | err e =>
      have := ((advEvent_err _ _).mp ht).1
      rw [u8_lt_iff] at this
      rw [UInt8.le_iff_toNat_le] at h4
      omega
    | panic => exact absurd ht (advEvent_panic t)

theorem checkLoop_fault (as : List LeAdvertisement) (h : ∀ a ∈ as, Reportable a) (ts : List UInt8)
    {e : EvError VE} (hf : ReportFault ts e) :
    checkLoop (VE := VE) (advsBytes as ++ ts) 0 = .err e := by
  have := checkLoop_advs (VE := VE) [] as h ts
  simp only [List.nil_append, List.length_nil] at this
  rw [this, checkLoop_unfold, innerNext_append, innerNext_fault hf]
  rfl

end

/-! ## Iterating over a report -/

theorem LeAdvertisingReport.iterFrom_unfold {ε : Type} (r : LeAdvertisingReport) (i : Nat) :
    r.iterFrom (ε := ε) i =
      match r.iterNext (ε := ε) i with
      | .ok (none, _) => .ok []
      | .ok (some a, j) => (r.iterFrom (ε := ε) j) >>= fun rest => .ok (a :: rest)
      | .err e => .err e
      | .panic => .panic := by
  conv => lhs; unfold LeAdvertisingReport.iterFrom
  split <;> rename_i h <;> rw [h]

theorem advsBytes_cons (a : LeAdvertisement) (as : List LeAdvertisement) :
    advsBytes (a :: as) = advBytes a ++ advsBytes as := by simp [advsBytes]

/-- Iterating over a buffer that begins with good reports gives them back. -/
theorem report_iterFrom {ε : Type} (r : LeAdvertisingReport) (as : List LeAdvertisement)
    (ha : ∀ a ∈ as, Reportable a) (pre rest : List UInt8)
    (hb : r.dataBuf.val = pre ++ advsBytes as ++ rest) (hl : r.dataLen = (pre ++ advsBytes as).length) :
    r.iterFrom (ε := ε) pre.length = .ok as := by
  have hs : slice (ε := ε) r.dataBuf.val 0 r.dataLen = .ok (pre ++ advsBytes as) := by
    rw [slice_of_le (by omega) (by rw [hb, hl]; simp), hb, hl, List.take_left]
    rfl
  induction as generalizing pre with
  | nil =>
    rw [LeAdvertisingReport.iterFrom_unfold, LeAdvertisingReport.iterNext, hs, Res.bind_ok,
      innerNext_append]
    rfl
  | cons a as ih =>
    rw [LeAdvertisingReport.iterFrom_unfold, LeAdvertisingReport.iterNext, hs, Res.bind_ok,
      innerNext_append, advsBytes_cons, innerNext_adv a (ha a (by simp))]
    simp only [Res.mapOk_ok, Res.unwrap_ok]
    have := ih (fun x hx => ha x (by simp [hx])) (pre ++ advBytes a)
      (by rw [hb, advsBytes_cons]; simp) (by rw [hl, advsBytes_cons]; simp)
      (by rw [hs, advsBytes_cons]; simp)
    rw [List.length_append] at this
    rw [this]
    rfl

theorem report_iter {ε : Type} (as : List LeAdvertisement) (ha : ∀ a ∈ as, Reportable a)
    (buf : Arr MAX_ADVERTISING_REPORT_LEN) (hz : InZeroes buf (advsBytes as)) :
    (LeAdvertisingReport.mk (advsBytes as).length buf).iter (ε := ε) = .ok as :=
  report_iterFrom _ as ha [] _ hz rfl

/-! ## Number Of Completed Packets -/

theorem pairsBytes_length (xs : List (UInt16 × UInt16)) : (pairsBytes xs).length = 4 * xs.length := by
  induction xs with
  | nil => rfl
  | cons x xs ih =>
    have : pairsBytes (x :: xs) = pairBytes x ++ pairsBytes xs := by simp [pairsBytes]
    rw [this, List.length_append, ih]
    simp [pairBytes, le16, le]
    omega

theorem pairs_shape (n : Nat) (bs : List UInt8) (h : bs.length = 4 * n) :
    ∃ xs, xs.length = n ∧ bs = pairsBytes xs := by
  induction n generalizing bs with
  | zero => exact ⟨[], rfl, List.length_eq_zero_iff.mp (by omega)⟩
  | succ n ih =>
    match bs, h with
    | a :: b :: c :: d :: bs, h =>
      obtain ⟨xs, hx, rfl⟩ := ih bs (by simp at h; omega)
      obtain ⟨x, hx1⟩ := le16_exists a b
      obtain ⟨y, hy1⟩ := le16_exists c d
      refine ⟨(x, y) :: xs, by simp [hx], ?_⟩
      have : pairsBytes ((x, y) :: xs) = pairBytes (x, y) ++ pairsBytes xs := by simp [pairsBytes]
      rw [this, pairBytes, ← hx1, ← hy1]
      rfl
    | [], h => simp at h
    | [_], h => simp at h; omega
    | [_, _], h => simp at h; omega
    | [_, _, _], h => simp at h; omega

theorem completed_len (V : Vendor) (n : UInt8) (bs : List UInt8) (h : bs.length ≠ 4 * n.toNat) :
    toNumberOfCompletedPackets V (n :: bs) = .err (.badLength (1 + bs.length) (1 + 4 * n.toNat)) := by
  unfold toNumberOfCompletedPackets
  have e1 : requireLenAtLeast (VE := V.VErr) (n :: bs) 1 = .ok () := by simp [requireLenAtLeast]
  have e2 {ε : Type} : idx (ε := ε) (n :: bs) 0 = .ok n := rfl
  rw [e1, e2]
  simp only [Res.bind_ok]
  rw [requireLen_err (by simp [NUM_COMPLETED_PACKETS_PAIR_LEN]; omega)]
  simp only [Res.bind_err, List.length_cons, NUM_COMPLETED_PACKETS_PAIR_LEN]
  rw [Nat.mul_comm n.toNat 4, Nat.add_comm bs.length 1]

theorem completed_eq (V : Vendor) (xs : List (UInt16 × UInt16)) (h : (pairsBytes xs).length ≤ 254) :
    toNumberOfCompletedPackets V (UInt8.ofNat xs.length :: pairsBytes xs) =
      .ok ⟨xs.length, zeroPadded NUMBER_OF_COMPLETED_PACKETS_MAX_LEN (pairsBytes xs) h⟩ := by
  unfold toNumberOfCompletedPackets
  have hl := pairsBytes_length xs
  have hn : (UInt8.ofNat xs.length).toNat = xs.length := by rw [UInt8.toNat_ofNat']; omega
  have e1 : requireLenAtLeast (VE := V.VErr) (UInt8.ofNat xs.length :: pairsBytes xs) 1 = .ok () := by
    simp [requireLenAtLeast]
  have e2 {ε : Type} : idx (ε := ε) (UInt8.ofNat xs.length :: pairsBytes xs) 0 = .ok (UInt8.ofNat xs.length) := rfl
  have e3 {ε : Type} : sliceFrom (ε := ε) (UInt8.ofNat xs.length :: pairsBytes xs) 1 = .ok (pairsBytes xs) := by
    simp [sliceFrom]
  rw [e1, e2]
  simp only [Res.bind_ok]
  rw [requireLen_ok (by simp [NUM_COMPLETED_PACKETS_PAIR_LEN, hl, hn]; omega), Res.bind_ok, e3, Res.bind_ok, hn,
    show xs.length * NUM_COMPLETED_PACKETS_PAIR_LEN = (pairsBytes xs).length by
      rw [hl, NUM_COMPLETED_PACKETS_PAIR_LEN]; omega,
    copyRange_zero NUMBER_OF_COMPLETED_PACKETS_MAX_LEN _ h, Res.bind_ok, toArr_val]
  rfl

theorem NumberOfCompletedPackets.iterFrom_unfold {ε : Type} (r : NumberOfCompletedPackets) (i : Nat) :
    r.iterFrom (ε := ε) i =
      match r.iterNext (ε := ε) i with
      | .ok (none, _) => .ok []
      | .ok (some a, j) => (r.iterFrom (ε := ε) j) >>= fun rest => .ok (a :: rest)
      | .err e => .err e
      | .panic => .panic := by
  conv => lhs; unfold NumberOfCompletedPackets.iterFrom
  split <;> rename_i h <;> rw [h]

theorem readU16From_at {ε : Type} (pre : List UInt8) (x : UInt16) (rest : List UInt8) :
    readU16From (ε := ε) (pre ++ (le16 x ++ rest)) pre.length = .ok x := by
  obtain ⟨a, b, h, hv⟩ := le16_cases x
  rw [h]
  simp [readU16From, sliceFrom, readU16, ← hv]

theorem completed_iterFrom {ε : Type} (r : NumberOfCompletedPackets) (xs : List (UInt16 × UInt16))
    (pre rest : List UInt8) (hb : r.dataBuf.val = pre ++ (pairsBytes xs ++ rest))
    (hl : r.numHandles * 4 = pre.length + 4 * xs.length) :
    r.iterFrom (ε := ε) pre.length = .ok (xs.map fun x => ⟨⟨x.1⟩, x.2.toNat⟩) := by
  induction xs generalizing pre with
  | nil =>
    rw [NumberOfCompletedPackets.iterFrom_unfold, NumberOfCompletedPackets.iterNext,
      if_pos (by simp [NUM_COMPLETED_PACKETS_PAIR_LEN] at *; omega)]
    rfl
  | cons x xs ih =>
    have hc : pairsBytes (x :: xs) = le16 x.1 ++ le16 x.2 ++ pairsBytes xs := by simp [pairsBytes, pairBytes]
    rw [hc] at hb
    have r1 : readU16From (ε := ε) r.dataBuf.val pre.length = .ok x.1 := by
      rw [hb, List.append_assoc, List.append_assoc]
      exact readU16From_at _ _ _
    have r2 : readU16From (ε := ε) r.dataBuf.val (pre.length + 2) = .ok x.2 := by
      have : pre.length + 2 = (pre ++ le16 x.1).length := by simp [le16, le]
      rw [hb, this, List.append_assoc, List.append_assoc, ← List.append_assoc pre]
      exact readU16From_at _ _ _
    rw [NumberOfCompletedPackets.iterFrom_unfold, NumberOfCompletedPackets.iterNext,
      if_neg (by simp [NUM_COMPLETED_PACKETS_PAIR_LEN] at *; omega), r1, Res.bind_ok, r2, Res.bind_ok]
    simp only
    have := ih (pre ++ (le16 x.1 ++ le16 x.2)) (by rw [hb]; simp) (by simp [le16, le] at *; omega)
    rw [show pre.length + NUM_COMPLETED_PACKETS_PAIR_LEN = (pre ++ (le16 x.1 ++ le16 x.2)).length by
      simp [le16, le, NUM_COMPLETED_PACKETS_PAIR_LEN], this]
    rfl

theorem completed_iter {ε : Type} (xs : List (UInt16 × UInt16)) (buf : Arr NUMBER_OF_COMPLETED_PACKETS_MAX_LEN)
    (hz : InZeroes buf (pairsBytes xs)) :
    (NumberOfCompletedPackets.mk xs.length buf).iter (ε := ε) =
      .ok (xs.map fun x => ⟨⟨x.1⟩, x.2.toNat⟩) :=
  completed_iterFrom _ xs [] _ hz (by simp; omega)

end Bt
