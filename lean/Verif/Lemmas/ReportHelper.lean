import Verif.Lemmas.Events

/-! # `report_with_advertisements` -/

namespace Bt

open Spec

variable {ε : Type}

theorem setByte_at (pre : List UInt8) (x : UInt8) (rest : List UInt8) (b : UInt8) {i : Nat}
    (hi : i = pre.length) : setByte (ε := ε) (pre ++ x :: rest) i b = .ok (pre ++ b :: rest) := by
  subst hi
  rw [setByte_of_lt _ (by simp)]
  simp [List.drop_append]

theorem copyRange_at (pre mid rest src : List UInt8) {i j : Nat} (hi : i = pre.length)
    (hj : j = pre.length + mid.length) (hs : src.length = mid.length) :
    copyRange (ε := ε) (pre ++ (mid ++ rest)) i j src = .ok (pre ++ (src ++ rest)) := by
  subst hi hj
  rw [copyRange_of_le (by omega) (by simp) (by omega)]
  simp [List.drop_append]

theorem withRange_at (pre mid rest : List UInt8) {i j : Nat} (hi : i = pre.length)
    (hj : j = pre.length + mid.length) (f : List UInt8 → Res ε (List UInt8)) :
    withRange (pre ++ (mid ++ rest)) i j f = (f mid).mapOk (fun s => pre ++ (s ++ rest)) := by
  subst hi hj
  rw [withRange_of_le (by omega) (by simp)]
  have h1 : ((pre ++ (mid ++ rest)).take (pre.length + mid.length)).drop pre.length = mid := by
    simp [List.take_append]
  have h2 : (pre ++ (mid ++ rest)).drop (pre.length + mid.length) = rest := by
    simp [List.drop_append]
  rw [h1, h2]
  simp

theorem setByte_cases (buf : List UInt8) (i : Nat) (b : UInt8) :
    (setByte (ε := ε) buf i b = .panic ∧ ¬ i < buf.length) ∨
    ∃ buf', setByte (ε := ε) buf i b = .ok buf' ∧ buf'.length = buf.length ∧ i < buf.length := by
  unfold setByte
  by_cases h : i < buf.length
  · rw [if_pos h]; exact .inr ⟨_, rfl, by simp, h⟩
  · rw [if_neg h]; exact .inl ⟨rfl, h⟩

theorem copyRange_cases (buf : List UInt8) (i j : Nat) (src : List UInt8) :
    copyRange (ε := ε) buf i j src = .panic ∨
    ∃ buf', copyRange (ε := ε) buf i j src = .ok buf' ∧ buf'.length = buf.length := by
  unfold copyRange
  split
  · rename_i h
    refine .inr ⟨_, rfl, ?_⟩
    simp [splice]
    omega
  · exact .inl rfl

theorem withAddr_cases (buf : List UInt8) (i j : Nat) (t : BdAddrType) :
    withRange (ε := ε) buf i j (t.copyIntoSlice ·) = .panic ∨
    ∃ buf', withRange (ε := ε) buf i j (t.copyIntoSlice ·) = .ok buf' ∧ buf'.length = buf.length := by
  by_cases h : i ≤ j ∧ j ≤ buf.length
  · rw [withRange_of_le h.1 h.2, copyAddrType_eq]
    by_cases h7 : ((buf.take j).drop i).length = 7
    · rw [if_pos h7]
      refine .inr ⟨_, rfl, ?_⟩
      have hl (t : BdAddrType) : (addrTypeBytes t).length = 7 := by
        cases t <;> simp [addrTypeBytes, Arr.len]
      simp only [List.length_append, hl, List.length_take, List.length_drop] at h7 ⊢
      omega
    · rw [if_neg h7]; exact .inl rfl
  · unfold withRange
    rw [if_neg h]; exact .inl rfl

theorem addrTypeBytes_length (t : BdAddrType) : (addrTypeBytes t).length = 7 := by
  cases t with
  | pub a => simp [addrTypeBytes, a.val.len]
  | random a => simp [addrTypeBytes, a.val.len]

theorem advBytes_length (a : LeAdvertisement) : (advBytes a).length = 10 + a.data.length := by
  simp only [advBytes, List.length_append, List.length_cons, addrTypeBytes_length, List.length_nil]
  omega

theorem asU8_eq (t : AdvertisementEvent) : t.asU8 = advEventCode t := by cases t <;> rfl

theorem rssi_byte (x : Option Int8) : (x.getD 127).toUInt8 = rssiByte x := by
  cases x with
  | none => rfl
  | some r =>
    show r.toUInt8 = twos r
    have := twos_toInt8 r.toUInt8
    simp only [Int8.toInt8_toUInt8] at this
    exact this.symm

theorem reportStep_ok (pre suf : List UInt8) (a : LeAdvertisement) (h : (advBytes a).length ≤ suf.length) :
    reportStep (ε := ε) pre.length (pre ++ suf) a =
      .ok (pre.length + (advBytes a).length, pre ++ advBytes a ++ suf.drop (advBytes a).length) := by
  rw [advBytes_length] at h ⊢
  obtain ⟨x, mid, y, ds, r, rest, hm, hd, rfl⟩ : ∃ x mid y ds r rest, mid.length = 7 ∧
      ds.length = a.data.length ∧ suf = x :: mid ++ y :: ds ++ r :: rest := by
    match suf, h with
    | x :: m0 :: m1 :: m2 :: m3 :: m4 :: m5 :: m6 :: y :: tail, h =>
      simp only [List.length_cons] at h
      have ht : a.data.length < tail.length := by omega
      refine ⟨x, [m0, m1, m2, m3, m4, m5, m6], y, tail.take a.data.length, tail[a.data.length],
        tail.drop (a.data.length + 1), rfl, by rw [List.length_take]; omega, ?_⟩
      rw [← List.drop_eq_getElem_cons ht]
      simp
    | [_, _, _, _, _, _, _, _], h => simp at h; omega
    | [_, _, _, _, _, _, _], h => simp at h; omega
    | [_, _, _, _, _, _], h => simp at h; omega
    | [_, _, _, _, _], h => simp at h; omega
    | [_, _, _, _], h => simp at h; omega
    | [_, _, _], h => simp at h; omega
    | [_, _], h => simp at h; omega
    | [_], h => simp at h; omega
    | [], h => simp at h
  unfold reportStep
  simp only
  rw [show pre ++ (x :: mid ++ y :: ds ++ r :: rest) = pre ++ x :: (mid ++ (y :: (ds ++ r :: rest))) by simp,
    setByte_at pre _ _ _ rfl, Res.bind_ok,
    show pre ++ a.eventType.asU8 :: (mid ++ (y :: (ds ++ r :: rest))) =
      (pre ++ [a.eventType.asU8]) ++ (mid ++ (y :: (ds ++ r :: rest))) by simp,
    withRange_at _ mid _ (by simp; omega) (by simp [hm]; omega), copyAddrType_eq, if_pos hm]
  simp only [Res.mapOk_ok, Res.bind_ok]
  rw [show pre ++ [a.eventType.asU8] ++ (addrTypeBytes a.address ++ y :: (ds ++ r :: rest)) =
      (pre ++ [a.eventType.asU8] ++ addrTypeBytes a.address) ++ y :: (ds ++ r :: rest) by simp,
    setByte_at _ _ _ _ (by simp [addrTypeBytes_length]; omega), Res.bind_ok,
    show pre ++ [a.eventType.asU8] ++ addrTypeBytes a.address ++ UInt8.ofNat a.data.length :: (ds ++ r :: rest) =
      (pre ++ [a.eventType.asU8] ++ addrTypeBytes a.address ++ [UInt8.ofNat a.data.length]) ++
        (ds ++ r :: rest) by simp,
    copyRange_at _ ds _ _ (by simp [addrTypeBytes_length]; omega) (by simp [addrTypeBytes_length, hd]; omega)
      hd.symm, Res.bind_ok,
    ← List.append_assoc,
    setByte_at _ _ _ _ (by simp [addrTypeBytes_length]; omega), Res.bind_ok]
  simp only [Res.ok.injEq, Prod.mk.injEq]
  constructor
  · omega
  · rw [asU8_eq, rssi_byte]
    have : (x :: mid ++ y :: ds ++ r :: rest).drop (10 + a.data.length) = rest := by
      rw [show x :: mid ++ y :: ds ++ r :: rest = (x :: mid ++ y :: ds ++ [r]) ++ rest by simp]
      apply List.drop_left'
      simp [hm, hd]
      omega
    rw [this]
    simp [advBytes]

theorem reportStep_panic (buf : List UInt8) (n : Nat) (a : LeAdvertisement)
    (h : buf.length < n + (advBytes a).length) : reportStep (ε := ε) n buf a = .panic := by
  rw [advBytes_length] at h
  unfold reportStep
  simp only
  rcases setByte_cases (ε := ε) buf n a.eventType.asU8 with ⟨h1, _⟩ | ⟨b1, h1, l1, _⟩
  · rw [h1]; rfl
  rw [h1, Res.bind_ok]
  rcases withAddr_cases (ε := ε) b1 (1 + n) (7 + (1 + n)) a.address with h2 | ⟨b2, h2, l2⟩
  · rw [h2]; rfl
  rw [h2, Res.bind_ok]
  rcases setByte_cases (ε := ε) b2 (7 + (1 + n)) (UInt8.ofNat a.data.length) with ⟨h3, _⟩ | ⟨b3, h3, l3, _⟩
  · rw [h3]; rfl
  rw [h3, Res.bind_ok]
  rcases copyRange_cases (ε := ε) b3 (1 + (7 + (1 + n))) (1 + (7 + (1 + n)) + a.data.length) a.data with
    h4 | ⟨b4, h4, l4⟩
  · rw [h4]; rfl
  rw [h4, Res.bind_ok]
  rcases setByte_cases (ε := ε) b4 (1 + (7 + (1 + n)) + a.data.length) (a.rssi.getD 127).toUInt8 with
    ⟨h5, _⟩ | ⟨b5, h5, l5, h6⟩
  · rw [h5]; rfl
  omega

theorem reportLoop_eq (as : List LeAdvertisement) (pre suf : List UInt8) :
    reportLoop (ε := ε) as pre.length (pre ++ suf) =
      if (advsBytes as).length ≤ suf.length then
        .ok (pre.length + (advsBytes as).length, pre ++ advsBytes as ++ suf.drop (advsBytes as).length)
      else .panic := by
  induction as generalizing pre suf with
  | nil => simp [reportLoop, advsBytes]
  | cons a as ih =>
    unfold reportLoop
    rw [advsBytes_cons, List.length_append]
    by_cases h : (advBytes a).length ≤ suf.length
    · rw [reportStep_ok pre suf a h]
      simp only [Res.bind_ok]
      have := ih (pre ++ advBytes a) (suf.drop (advBytes a).length)
      rw [List.length_append, List.length_drop, List.drop_drop] at this
      rw [this]
      by_cases h2 : (advBytes a).length + (advsBytes as).length ≤ suf.length
      · rw [if_pos h2, if_pos (by omega)]
        simp [Nat.add_assoc]
      · rw [if_neg h2, if_neg (by omega)]
    · rw [reportStep_panic _ _ _ (by simp; omega), if_neg (by omega)]
      rfl

theorem reportWith_eq (as : List LeAdvertisement) :
    reportWithAdvertisements (ε := ε) as =
      if h : (advsBytes as).length ≤ MAX_ADVERTISING_REPORT_LEN then
        .ok ⟨(advsBytes as).length, zeroPadded MAX_ADVERTISING_REPORT_LEN (advsBytes as) h⟩
      else .panic := by
  unfold reportWithAdvertisements
  have := reportLoop_eq (ε := ε) as [] (Arr.zero MAX_ADVERTISING_REPORT_LEN).val
  rw [List.nil_append, List.length_nil, (Arr.zero MAX_ADVERTISING_REPORT_LEN).len] at this
  rw [this]
  by_cases h : (advsBytes as).length ≤ MAX_ADVERTISING_REPORT_LEN
  · rw [if_pos h, dif_pos h]
    simp only [Res.bind_ok, List.nil_append, Nat.zero_add]
    rw [show advsBytes as ++ (Arr.zero MAX_ADVERTISING_REPORT_LEN).val.drop (advsBytes as).length =
      (zeroPadded MAX_ADVERTISING_REPORT_LEN (advsBytes as) h).val by simp [zeroPadded, Arr.zero, zeroes],
      toArr_val]
    rfl
  · rw [if_neg h, dif_neg h]
    rfl

end Bt
