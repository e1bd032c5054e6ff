import Verif.Model.Event.Base

/-! # LE Advertising Report: event/mod.rs 921-1125 -/

namespace Bt

/-- `AdvertisementEvent`: event/mod.rs 1084-1096. -/
inductive AdvertisementEvent where
  | advertisement
  | directAdvertisement
  | scan
  | nonConnectableAdvertisement
  | scanResponse
  deriving DecidableEq, Repr

/-- `TryFrom<u8> for AdvertisementEvent` after `self_convert!`: event/mod.rs 1098-1111. -/
def AdvertisementEvent.tryFrom {VE : Type} (value : UInt8) : Res (EvError VE) AdvertisementEvent :=
  match value with
  | 0 => .ok .advertisement
  | 1 => .ok .directAdvertisement
  | 2 => .ok .scan
  | 3 => .ok .nonConnectableAdvertisement
  | 4 => .ok .scanResponse
  | _ => .err (.badLeAdvertisementType value)

/-- `event_type as u8`: the discriminants of event/mod.rs 1084-1096 are implicit, in source order. -/
def AdvertisementEvent.asU8 : AdvertisementEvent → UInt8
  | .advertisement => 0
  | .directAdvertisement => 1
  | .scan => 2
  | .nonConnectableAdvertisement => 3
  | .scanResponse => 4

/-- `LeAdvertisement<'a>`: event/mod.rs 1064-1079. -/
structure LeAdvertisement where
  eventType : AdvertisementEvent
  address : BdAddrType
  data : List UInt8
  rssi : Option Int8
  deriving DecidableEq, Repr

/-- `MAX_ADVERTISING_REPORT_LEN`: event/mod.rs 938. -/
def MAX_ADVERTISING_REPORT_LEN : Nat := 253

/-- `LeAdvertisingReport`: event/mod.rs 932-936. -/
structure LeAdvertisingReport where
  dataLen : Nat
  dataBuf : Arr MAX_ADVERTISING_REPORT_LEN
  deriving DecidableEq, Repr

section
variable {VE : Type}

/-- `LeAdvertisingReportInnerIterator::next`: event/mod.rs 1025-1059. `i` is `next_index`; the second
component of the result is its new value. After an error no caller uses the iterator again
(`to_le_advertising_report` returns, the public iterator unwraps), so the index is dropped there. -/
def innerNext (eventData : List UInt8) (i : Nat) : Res (EvError VE) (Option LeAdvertisement × Nat) :=
  if eventData.length ≤ i then .ok (none, i)
  else do
    let dataLen ← idx eventData (i + 8)
    let dataStart := i + 9
    let rssiIndex := dataStart + dataLen.toNat
    let next := rssiIndex + 1
    if eventData.length < next then .err .leAdvertisementReportIncomplete
    else
      let addr ← toArr 6 (← slice eventData (i + 2) (i + 8))
      let eventType ← AdvertisementEvent.tryFrom (← idx eventData i)
      let address ← (toBdAddrType (← idx eventData (i + 1)) ⟨addr⟩).mapErr .badLeAddressType
      let data ← slice eventData dataStart rssiIndex
      let r ← idx eventData rssiIndex
      let rssi := if r.toInt8 = 127 then none else some r.toInt8
      .ok (some ⟨eventType, address, data, rssi⟩, next)

theorem innerNext_advances {d : List UInt8} {i j : Nat} {a : LeAdvertisement}
    (h : innerNext (VE := VE) d i = .ok (some a, j)) : i < j ∧ j ≤ d.length := by
  unfold innerNext at h
  split at h
  · simp at h
  · cases hd : idx (ε := EvError VE) d (i + 8) with
    | ok dl =>
      rw [hd] at h
      simp only [Res.bind_ok] at h
      split at h
      · simp at h
      · rename_i h1
        generalize hs : (i + 9 + dl.toNat) = ri at *
        revert h
        cases slice (ε := EvError VE) d (i + 2) (i + 8) <;> simp only [Res.bind_ok, Res.bind_err, Res.bind_panic, reduceCtorEq, false_imp_iff]
        rename_i s
        cases toArr (ε := EvError VE) 6 s <;> simp only [Res.bind_ok, Res.bind_err, Res.bind_panic, reduceCtorEq, false_imp_iff]
        cases idx (ε := EvError VE) d i <;> simp only [Res.bind_ok, Res.bind_err, Res.bind_panic, reduceCtorEq, false_imp_iff]
        rename_i b
        cases AdvertisementEvent.tryFrom (VE := VE) b <;> simp only [Res.bind_ok, Res.bind_err, Res.bind_panic, reduceCtorEq, false_imp_iff]
        cases idx (ε := EvError VE) d (i + 1) <;> simp only [Res.bind_ok, Res.bind_err, Res.bind_panic, reduceCtorEq, false_imp_iff]
        rename_i ar _ t
        cases (toBdAddrType t ⟨ar⟩).mapErr (EvError.badLeAddressType (VE := VE)) <;> simp only [Res.bind_ok, Res.bind_err, Res.bind_panic, reduceCtorEq, false_imp_iff]
        cases slice (ε := EvError VE) d (i + 9) ri <;> simp only [Res.bind_ok, Res.bind_err, Res.bind_panic, reduceCtorEq, false_imp_iff]
        cases idx (ε := EvError VE) d ri <;> simp only [Res.bind_ok, Res.bind_err, Res.bind_panic, reduceCtorEq, false_imp_iff]
        intro h
        simp only [Res.ok.injEq, Prod.mk.injEq] at h
        omega
    | err e => rw [hd] at h; simp at h
    | panic => rw [hd] at h; simp at h

/-- `while let Some(_) = check_iter.next()? {}`: event/mod.rs 1119. -/
def checkLoop (eventData : List UInt8) (i : Nat) : Res (EvError VE) Unit :=
  match _h : innerNext (VE := VE) eventData i with
  | .ok (none, _) => .ok ()
  | .ok (some _, j) => checkLoop eventData j
  | .err e => .err e
  | .panic => .panic
termination_by eventData.length - i
decreasing_by
  have := innerNext_advances _h
  omega

/-- `to_le_advertising_report`: event/mod.rs 1113-1125. `payload.len() - 2` cannot underflow since
`&payload[2..]` has succeeded. -/
def toLeAdvertisingReport (payload : List UInt8) : Res (EvError VE) LeAdvertisingReport := do
  let eventData ← sliceFrom payload 2
  checkLoop eventData 0
  let dataLen := payload.length - 2
  let buf ← copyRange (Arr.zero MAX_ADVERTISING_REPORT_LEN).val 0 dataLen (← sliceFrom payload 2)
  let buf ← toArr MAX_ADVERTISING_REPORT_LEN buf
  .ok ⟨dataLen, buf⟩

end

/-- `LeAdvertisingReportIterator::next` of the iterator made by `LeAdvertisingReport::iter`:
event/mod.rs 941-954 and 1015-1022. The slice is taken again at each step instead of once. -/
def LeAdvertisingReport.iterNext {ε : Type} (r : LeAdvertisingReport) (i : Nat) :
    Res ε (Option LeAdvertisement × Nat) := do
  let eventData ← slice r.dataBuf.val 0 r.dataLen
  (innerNext (VE := Empty) eventData i).unwrap

theorem LeAdvertisingReport.iterNext_advances {ε : Type} {r : LeAdvertisingReport} {i j : Nat}
    {a : LeAdvertisement} (h : r.iterNext (ε := ε) i = .ok (some a, j)) :
    i < j ∧ j ≤ r.dataBuf.val.length := by
  unfold LeAdvertisingReport.iterNext slice at h
  split at h
  · rename_i hl
    simp only [Res.bind_ok] at h
    cases hn : innerNext (VE := Empty) (List.drop 0 (List.take r.dataLen r.dataBuf.val)) i with
    | ok p =>
      rw [hn] at h
      simp only [Res.unwrap_ok, Res.ok.injEq] at h
      subst h
      have := innerNext_advances hn
      simp only [List.drop_zero, List.length_take] at this
      omega
    | err e => rw [hn] at h; simp at h
    | panic => rw [hn] at h; simp at h
  · simp at h

/-- All the items that `for x in report.iter()` sees from index `i` on (the user's loop, not crate code):
calls `next` until it returns `None`. -/
def LeAdvertisingReport.iterFrom {ε : Type} (r : LeAdvertisingReport) (i : Nat) :
    Res ε (List LeAdvertisement) :=
  match _h : r.iterNext (ε := ε) i with
  | .ok (none, _) => .ok []
  | .ok (some a, j) => do
    let rest ← iterFrom r j
    .ok (a :: rest)
  | .err e => .err e
  | .panic => .panic
termination_by r.dataBuf.val.length - i
decreasing_by
  have := LeAdvertisingReport.iterNext_advances _h
  omega

/-- `report.iter()` collected into a list. -/
def LeAdvertisingReport.iter {ε : Type} (r : LeAdvertisingReport) : Res ε (List LeAdvertisement) :=
  r.iterFrom 0

/-- One iteration of the loop of `report_with_advertisements`: event/mod.rs 970-987. -/
def reportStep {ε : Type} (dataLen : Nat) (buf : List UInt8) (a : LeAdvertisement) :
    Res ε (Nat × List UInt8) := do
  let eventTypeIndex := dataLen
  let addrIndex := 1 + eventTypeIndex
  let dataLenIndex := 7 + addrIndex
  let dataStartIndex := 1 + dataLenIndex
  let rssiIndex := dataStartIndex + a.data.length
  let buf ← setByte buf eventTypeIndex a.eventType.asU8
  let buf ← withRange buf addrIndex dataLenIndex (a.address.copyIntoSlice ·)
  let buf ← setByte buf dataLenIndex (UInt8.ofNat a.data.length)
  let buf ← copyRange buf dataStartIndex rssiIndex a.data
  let buf ← setByte buf rssiIndex (a.rssi.getD 127).toUInt8
  .ok (1 + rssiIndex, buf)

/-- The loop of `report_with_advertisements`: event/mod.rs 970-987. -/
def reportLoop {ε : Type} : List LeAdvertisement → Nat → List UInt8 → Res ε (Nat × List UInt8)
  | [], dataLen, buf => .ok (dataLen, buf)
  | a :: as, dataLen, buf => do
    let (dataLen, buf) ← reportStep dataLen buf a
    reportLoop as dataLen buf

/-- `test_helpers::report_with_advertisements`: event/mod.rs 964-990. -/
def reportWithAdvertisements {ε : Type} (as : List LeAdvertisement) : Res ε LeAdvertisingReport := do
  let (dataLen, buf) ← reportLoop as 0 (Arr.zero MAX_ADVERTISING_REPORT_LEN).val
  let buf ← toArr MAX_ADVERTISING_REPORT_LEN buf
  .ok ⟨dataLen, buf⟩

end Bt
