import Verif.Lemmas.CommandComplete
import Verif.Props.Address

/-! # LE advertising reports -/

namespace Bt

open Spec

section
variable {VE : Type}

theorem idx_append (pre suf : List UInt8) (i : Nat) {ε : Type} :
    idx (ε := ε) (pre ++ suf) (pre.length + i) = idx suf i := by
  unfold idx
  rw [List.getElem?_append_right (by omega), Nat.add_sub_cancel_left]

theorem slice_append (pre suf : List UInt8) (a b : Nat) {ε : Type} :
    slice (ε := ε) (pre ++ suf) (pre.length + a) (pre.length + b) = slice suf a b := by
  unfold slice
  by_cases h : a ≤ b ∧ b ≤ suf.length
  · rw [if_pos (by simp; omega), if_pos h]
    simp [List.take_append, List.drop_append]
  · rw [if_neg (by simp; omega), if_neg h]

/-- The iterator step only looks at what is left. -/
theorem innerNext_append (pre suf : List UInt8) :
    innerNext (VE := VE) (pre ++ suf) pre.length =
      (innerNext (VE := VE) suf 0).mapOk (fun p => (p.1, pre.length + p.2)) := by
  unfold innerNext
  by_cases h0 : suf.length ≤ 0
  · rw [if_pos (by rw [List.length_append]; omega), if_pos h0]; rfl
  rw [if_neg (by rw [List.length_append]; omega), if_neg h0]
  rw [idx_append, show 0 + 8 = 8 from rfl]
  cases idx (ε := EvError VE) suf 8 with
  | err e => rfl
  | panic => rfl
  | ok dl =>
    simp only [Res.bind_ok]
    by_cases hl : suf.length < 0 + 9 + dl.toNat + 1
    · rw [if_pos hl, if_pos (by simp; omega)]; rfl
    rw [if_neg hl, if_neg (by simp; omega)]
    rw [slice_append, show pre.length + 9 + dl.toNat = pre.length + (0 + 9 + dl.toNat) by omega, slice_append,
      idx_append, idx_append, show idx (ε := EvError VE) (pre ++ suf) pre.length = idx suf 0 from idx_append pre suf 0]
    simp only [Nat.zero_add]
    cases slice (ε := EvError VE) suf 2 8 with
    | err e => rfl
    | panic => rfl
    | ok b =>
      simp only [Res.bind_ok]
      cases toArr (ε := EvError VE) 6 b with
      | err e => rfl
      | panic => rfl
      | ok ar =>
        simp only [Res.bind_ok]
        cases idx (ε := EvError VE) suf 0 with
        | err e => rfl
        | panic => rfl
        | ok t =>
          simp only [Res.bind_ok]
          cases AdvertisementEvent.tryFrom (VE := VE) t with
          | err e => rfl
          | panic => rfl
          | ok t =>
            simp only [Res.bind_ok]
            cases idx (ε := EvError VE) suf 1 with
            | err e => rfl
            | panic => rfl
            | ok k =>
              simp only [Res.bind_ok]
              cases (toBdAddrType k ⟨ar⟩).mapErr (EvError.badLeAddressType (VE := VE)) with
              | err e => rfl
              | panic => rfl
              | ok a =>
                simp only [Res.bind_ok]
                cases slice (ε := EvError VE) suf 9 (9 + dl.toNat) with
                | err e => rfl
                | panic => rfl
                | ok d =>
                  simp only [Res.bind_ok]
                  cases idx (ε := EvError VE) suf (9 + dl.toNat) with
                  | err e => rfl
                  | panic => rfl
                  | ok r =>
                    simp only [Res.bind_ok, Res.mapOk_ok, Res.ok.injEq, Prod.mk.injEq, true_and]
                    omega

theorem innerNext_short (suf : List UInt8) (h0 : 0 < suf.length) (h9 : suf.length < 9) :
    innerNext (VE := VE) suf 0 = .panic := by
  unfold innerNext
  rw [if_neg (by omega), idx_of_ge (by omega)]
  rfl

theorem innerNext_incomplete (suf : List UInt8) (n : UInt8) (h8 : suf[8]? = some n)
    (hl : suf.length < 10 + n.toNat) :
    innerNext (VE := VE) suf 0 = .err .leAdvertisementReportIncomplete := by
  have : 8 < suf.length := (List.getElem?_eq_some_iff.mp h8).1
  unfold innerNext
  rw [if_neg (by omega), idx, h8]
  simp only [Res.bind_ok]
  rw [if_pos (by omega)]

/-- A whole report: its bytes, with the type and address type still undecoded. -/
theorem report_shape (suf : List UInt8) (n : UInt8) (h8 : suf[8]? = some n)
    (hl : 10 + n.toNat ≤ suf.length) :
    ∃ t k a data r rest, data.length = n.toNat ∧
      suf = t :: k :: (a : BdAddr).val.val ++ n :: data ++ [r] ++ rest := by
  match suf, hl with
  | t :: k :: a0 :: a1 :: a2 :: a3 :: a4 :: a5 :: n' :: tail, hl =>
    simp only [List.getElem?_cons_succ, List.getElem?_cons_zero, Option.some.injEq] at h8
    subst h8
    simp only [List.length_cons] at hl
    have ht : n'.toNat < tail.length := by omega
    refine ⟨t, k, ⟨⟨[a0, a1, a2, a3, a4, a5], rfl⟩⟩, tail.take n'.toNat, tail[n'.toNat],
      tail.drop (n'.toNat + 1), by rw [List.length_take]; omega, ?_⟩
    simp only [List.cons_append, List.nil_append, List.append_assoc, List.cons.injEq, true_and]
    rw [← List.drop_eq_getElem_cons ht, List.take_append_drop]
  | [_, _, _, _, _, _, _, _], _ => simp at h8
  | [_, _, _, _, _, _, _], _ => simp at h8
  | [_, _, _, _, _, _], _ => simp at h8
  | [_, _, _, _, _], _ => simp at h8
  | [_, _, _, _], _ => simp at h8
  | [_, _, _], _ => simp at h8
  | [_, _], _ => simp at h8
  | [_], _ => simp at h8
  | [], _ => simp at h8

theorem innerNext_report (t k : UInt8) (a : BdAddr) (n : UInt8) (data : List UInt8) (r : UInt8)
    (rest : List UInt8) (hn : data.length = n.toNat) :
    innerNext (VE := VE) (t :: k :: a.val.val ++ n :: data ++ [r] ++ rest) 0 =
      (do let ty ← AdvertisementEvent.tryFrom t
          let ad ← (toBdAddrType k a).mapErr .badLeAddressType
          .ok (some ⟨ty, ad, data, if r.toInt8 = 127 then none else some r.toInt8⟩, 10 + n.toNat)) := by
  obtain ⟨a0, a1, a2, a3, a4, a5, rfl⟩ := addr_cases a
  simp only [List.cons_append, List.nil_append, List.append_assoc]
  unfold innerNext
  rw [if_neg (by simp)]
  have e8 {ε : Type} : idx (ε := ε) (t :: k :: a0 :: a1 :: a2 :: a3 :: a4 :: a5 :: n :: (data ++ r :: rest)) (0 + 8) =
    .ok n := rfl
  rw [e8, Res.bind_ok]
  rw [if_neg (by simp; omega)]
  have e2 {ε : Type} : slice (ε := ε) (t :: k :: a0 :: a1 :: a2 :: a3 :: a4 :: a5 :: n :: (data ++ r :: rest))
    (0 + 2) (0 + 8) = .ok [a0, a1, a2, a3, a4, a5] := by
    simp [slice]
  have ed {ε : Type} : slice (ε := ε) (t :: k :: a0 :: a1 :: a2 :: a3 :: a4 :: a5 :: n :: (data ++ r :: rest))
    (0 + 9) (0 + 9 + n.toNat) = .ok data := by
    rw [slice_of_le (by omega) (by simp; omega)]
    rw [show 0 + 9 + n.toNat = n.toNat + 9 by omega]
    simp [hn]
  have er {ε : Type} : idx (ε := ε) (t :: k :: a0 :: a1 :: a2 :: a3 :: a4 :: a5 :: n :: (data ++ r :: rest))
    (0 + 9 + n.toNat) = .ok r := by
    rw [show 0 + 9 + n.toNat = n.toNat + 9 by omega]
    simp [idx, ← hn]
  have e0 {ε : Type} : idx (ε := ε) (t :: k :: a0 :: a1 :: a2 :: a3 :: a4 :: a5 :: n :: (data ++ r :: rest)) 0 =
    .ok t := rfl
  have e1 {ε : Type} : idx (ε := ε) (t :: k :: a0 :: a1 :: a2 :: a3 :: a4 :: a5 :: n :: (data ++ r :: rest)) (0 + 1) =
    .ok k := rfl
  have ea {ε : Type} : toArr (ε := ε) 6 [a0, a1, a2, a3, a4, a5] = .ok ⟨[a0, a1, a2, a3, a4, a5], rfl⟩ := rfl
  rw [e2, Res.bind_ok, ea, ed, er, e0, e1]
  simp only [Res.bind_ok]
  cases AdvertisementEvent.tryFrom (VE := VE) t with
  | err e => rfl
  | panic => rfl
  | ok ty =>
    simp only [Res.bind_ok]
    cases (toBdAddrType k ⟨⟨[a0, a1, a2, a3, a4, a5], rfl⟩⟩).mapErr (EvError.badLeAddressType (VE := VE)) with
    | err e => rfl
    | panic => rfl
    | ok ad =>
      simp only [Res.bind_ok, Res.ok.injEq, Prod.mk.injEq, true_and]
      omega

theorem rssiByte_dec (r : UInt8) :
    rssiByte (if r.toInt8 = 127 then none else some r.toInt8) = r := by
  by_cases h : r.toInt8 = 127
  · rw [if_pos h]
    rw [← twos_toInt8 r, h]
    decide
  · rw [if_neg h]
    exact twos_toInt8 r

theorem rssi_dec (x : Option Int8) (h : x ≠ some 127) :
    (if (rssiByte x).toInt8 = 127 then none else some (rssiByte x).toInt8) = x := by
  cases x with
  | none => rfl
  | some r =>
    simp only [rssiByte, toInt8_twos]
    rw [if_neg (fun e => h (by rw [e]))]

/-- Decoding a well-formed report. -/
theorem innerNext_adv (a : LeAdvertisement) (ha : Reportable a) (rest : List UInt8) :
    innerNext (VE := VE) (advBytes a ++ rest) 0 = .ok (some a, (advBytes a).length) := by
  obtain ⟨ty, ad, data, rssi⟩ := a
  obtain ⟨hl, hr⟩ := ha
  simp only at hl hr
  obtain ⟨k, b, hk⟩ : ∃ (k : UInt8) (b : BdAddr), addrTypeBytes ad = k :: b.val.val := by
    cases ad with
    | pub b => exact ⟨0, b, rfl⟩
    | random b => exact ⟨1, b, rfl⟩
  have hn : (UInt8.ofNat data.length).toNat = data.length := by
    rw [UInt8.toNat_ofNat']; omega
  have hlen : (advBytes ⟨ty, ad, data, rssi⟩).length = 10 + data.length := by
    simp only [advBytes, hk, List.length_append, List.length_cons, b.val.len, List.length_nil]
    omega
  rw [hlen]
  have := innerNext_report (VE := VE) (advEventCode ty) k b (UInt8.ofNat data.length) data (rssiByte rssi)
    rest hn.symm
  simp only [advBytes, hk]
  rw [(advEvent_ok (VE := VE) _ ty).mpr rfl, Res.bind_ok, (addrType_ok k b ad).mpr hk.symm, Res.mapErr_ok,
    Res.bind_ok, rssi_dec rssi hr, hn] at this
  exact this

/-- Everything that one step of the iterator can do. -/
theorem innerNext_cases (suf : List UInt8) :
    (suf = [] ∧ innerNext (VE := VE) suf 0 = .ok (none, 0)) ∨
    (∃ a rest, Reportable a ∧ suf = advBytes a ++ rest ∧
      innerNext (VE := VE) suf 0 = .ok (some a, (advBytes a).length)) ∨
    (∃ e, ReportFault suf e ∧ innerNext (VE := VE) suf 0 = .err e) ∨
    (0 < suf.length ∧ suf.length < 9 ∧ innerNext (VE := VE) suf 0 = .panic) := by
  by_cases h0 : suf = []
  · subst h0; exact .inl ⟨rfl, rfl⟩
  have hp : 0 < suf.length := List.length_pos_iff.mpr h0
  by_cases h9 : suf.length < 9
  · exact .inr (.inr (.inr ⟨hp, h9, innerNext_short suf hp h9⟩))
  have h8 : suf[8]? = some (suf[8]'(by omega)) := List.getElem?_eq_getElem _
  generalize suf[8]'(by omega) = n at h8
  by_cases hl : suf.length < 10 + n.toNat
  · exact .inr (.inr (.inl ⟨_, .incomplete h8 hl, innerNext_incomplete suf n h8 hl⟩))
  obtain ⟨t, k, b, data, r, rest, hn, hs⟩ := report_shape suf n h8 (by omega)
  have heq : innerNext (VE := VE) suf 0 = _ := hs ▸ innerNext_report (VE := VE) t k b n data r rest hn
  have g0 : suf[0]? = some t := by rw [hs]; rfl
  have g1 : suf[1]? = some k := by rw [hs]; rfl
  cases ht : AdvertisementEvent.tryFrom (VE := VE) t with
  | err e =>
    obtain ⟨h4, rfl⟩ := (advEvent_err t e).mp ht
    rw [ht] at heq
    exact .inr (.inr (.inl ⟨_, .eventType h8 (by omega) g0 h4, heq⟩))
  | panic => exact absurd ht (advEvent_panic t)
  | ok ty =>
    rw [ht, Res.bind_ok] at heq
    have hty := (advEvent_ok (VE := VE) t ty).mp ht
    cases ha : toBdAddrType k b with
    | err e =>
      obtain ⟨h1, rfl⟩ := (addrType_err k b e).mp ha
      rw [ha] at heq
      exact .inr (.inr (.inl ⟨_, .addressType h8 (by omega) g0 (by rw [hty]; cases ty <;> decide) g1 h1, heq⟩))
    | panic => exact absurd ha (addrType_panic k b)
    | ok ad =>
      rw [ha, Res.mapErr_ok, Res.bind_ok] at heq
      have had := (addrType_ok k b ad).mp ha
      refine .inr (.inl ⟨⟨ty, ad, data, if r.toInt8 = 127 then none else some r.toInt8⟩, rest, ?_, ?_, ?_⟩)
      · refine ⟨?_, ?_⟩
        · have := n.toNat_lt
          simp only; omega
        · simp only
          split
          · simp
          · rename_i hne
            intro h
            exact hne (Option.some.inj h)
      · rw [hs]
        simp only [advBytes, ← had, rssiByte_dec, hn, UInt8.ofNat_toNat, hty]
      · rw [heq]
        have hlen : (advBytes ⟨ty, ad, data, if r.toInt8 = 127 then none else some r.toInt8⟩).length =
            10 + n.toNat := by
          simp only [advBytes, ← had, List.length_append, List.length_cons, b.val.len, List.length_nil]
          omega
        rw [hlen]

theorem checkLoop_unfold (d : List UInt8) (i : Nat) :
    checkLoop (VE := VE) d i =
      match innerNext (VE := VE) d i with
      | .ok (none, _) => .ok ()
      | .ok (some _, j) => checkLoop d j
      | .err e => .err e
      | .panic => .panic := by
  conv => lhs; unfold checkLoop
  split <;> rename_i h <;> rw [h]

theorem advBytes_length_pos (a : LeAdvertisement) : 0 < (advBytes a).length := by
  simp [advBytes]

/-- Everything that the checking loop can do. -/
theorem checkLoop_cases (n : Nat) (pre suf : List UInt8) (hn : suf.length ≤ n) :
    (∃ as, (∀ a ∈ as, Reportable a) ∧ suf = advsBytes as ∧
      checkLoop (VE := VE) (pre ++ suf) pre.length = .ok ()) ∨
    (∃ as bs e, (∀ a ∈ as, Reportable a) ∧ suf = advsBytes as ++ bs ∧ ReportFault bs e ∧
      checkLoop (VE := VE) (pre ++ suf) pre.length = .err e) ∨
    (∃ as bs, (∀ a ∈ as, Reportable a) ∧ suf = advsBytes as ++ bs ∧ 0 < bs.length ∧ bs.length < 9 ∧
      checkLoop (VE := VE) (pre ++ suf) pre.length = .panic) := by
  induction n generalizing pre suf with
  | zero =>
    obtain rfl : suf = [] := List.length_eq_zero_iff.mp (by omega)
    rw [checkLoop_unfold, innerNext_append]
    exact .inl ⟨[], by simp, rfl, rfl⟩
  | succ n ihn =>
  rw [checkLoop_unfold, innerNext_append]
  rcases innerNext_cases (VE := VE) suf with ⟨rfl, h⟩ | ⟨a, rest, ha, rfl, h⟩ | ⟨e, hf, h⟩ | ⟨h0, h9, h⟩
  · rw [h]
    exact .inl ⟨[], by simp, rfl, rfl⟩
  · rw [h]
    simp only [Res.mapOk_ok]
    have ih := ihn (pre ++ advBytes a) rest (by
      have := advBytes_length_pos a
      rw [List.length_append] at hn
      omega)
    rw [List.length_append, List.append_assoc] at ih
    rcases ih with ⟨as, h1, rfl, h2⟩ | ⟨as, bs, e, h1, rfl, h2, h3⟩ | ⟨as, bs, h1, rfl, h2, h3, h4⟩
    · exact .inl ⟨a :: as, by simpa using ⟨ha, h1⟩, rfl, h2⟩
    · exact .inr (.inl ⟨a :: as, bs, e, by simpa using ⟨ha, h1⟩, by simp [advsBytes], h2, h3⟩)
    · exact .inr (.inr ⟨a :: as, bs, by simpa using ⟨ha, h1⟩, by simp [advsBytes], h2, h3, h4⟩)
  · rw [h]
    exact .inr (.inl ⟨[], suf, e, by simp, rfl, hf, rfl⟩)
  · rw [h]
    exact .inr (.inr ⟨[], suf, by simp, rfl, h0, h9, rfl⟩)

theorem checkLoop_advs (pre : List UInt8) (as : List LeAdvertisement) (ha : ∀ a ∈ as, Reportable a)
    (bs : List UInt8) :
    checkLoop (VE := VE) (pre ++ (advsBytes as ++ bs)) pre.length =
      checkLoop (VE := VE) (pre ++ advsBytes as ++ bs) (pre ++ advsBytes as).length := by
  induction as generalizing pre with
  | nil => simp [advsBytes]
  | cons a as ih =>
    rw [checkLoop_unfold, innerNext_append]
    have : advsBytes (a :: as) = advBytes a ++ advsBytes as := by simp [advsBytes]
    rw [this, List.append_assoc, innerNext_adv a (ha a (by simp))]
    simp only [Res.mapOk_ok]
    have := ih (pre ++ advBytes a) (fun x hx => ha x (by simp [hx]))
    rw [List.length_append, List.append_assoc] at this
    rw [this]
    simp only [List.append_assoc]

end

end Bt
