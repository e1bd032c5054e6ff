import Verif.Model.Debug
import Verif.Lemmas.Types
import Verif.Lemmas.EventFields

/-! # Helper lemmas: rendered text determines what was rendered -/

namespace Bt

/-- Splitting at the first occurrence of a character that neither word contains. -/
theorem text_split {x : Char} {v w r s : Text} (hv : x ∉ v) (hw : x ∉ w) (h : v ++ x :: r = w ++ x :: s) :
    v = w ∧ r = s := by
  induction v generalizing w with
  | nil =>
    cases w with
    | nil => exact ⟨rfl, by simpa using h⟩
    | cons y w =>
      simp only [List.nil_append, List.cons_append, List.cons.injEq] at h
      exact absurd (by rw [h.1]; simp) hw
  | cons a v ih =>
    cases w with
    | nil =>
      simp only [List.nil_append, List.cons_append, List.cons.injEq] at h
      exact absurd (by rw [← h.1]; simp) hv
    | cons y w =>
      simp only [List.cons_append, List.cons.injEq] at h
      obtain ⟨rfl, h⟩ := h
      obtain ⟨rfl, rfl⟩ := ih (fun hx => hv (List.mem_cons_of_mem _ hx)) (fun hx => hw (List.mem_cons_of_mem _ hx)) h
      exact ⟨rfl, rfl⟩

theorem fmtDec_inj {m n : Nat} (h : fmtDec m = fmtDec n) : m = n := by
  rw [← Nat.ofDigitChars_ten_toDigits (n := m), ← Nat.ofDigitChars_ten_toDigits (n := n)]
  exact congrArg (Nat.ofDigitChars 10 · 0) h

theorem not_mem_fmtDec {x : Char} (hx : x.isDigit = false) (n : Nat) : x ∉ fmtDec n := by
  intro h
  rw [Nat.isDigit_of_mem_toDigits (by decide) (by decide) h] at hx
  cases hx

/-- Value of an upper-case hexadecimal digit. -/
def hexVal (x : Char) : Nat := if x.toNat < 58 then x.toNat - 48 else x.toNat - 55

theorem fmtHex_val (b : UInt8) : (fmtHex b).foldl (fun a x => 16 * a + hexVal x) 0 = b.toNat := by
  revert b; apply u8_all; decide +kernel

theorem fmtHex_inj {a b : UInt8} (h : fmtHex a = fmtHex b) : a = b := by
  rw [← UInt8.toNat_inj, ← fmtHex_val, ← fmtHex_val b, h]

theorem fmtHex_plain (b : UInt8) : ',' ∉ fmtHex b ∧ ']' ∉ fmtHex b := by
  revert b; apply u8_all; decide +kernel

theorem fmtItems_inj {α : Type} {f : α → Text} (hf : ∀ a b, f a = f b → a = b) (hc : ∀ a, ',' ∉ f a)
    (hb : ∀ a, ']' ∉ f a) : ∀ {xs ys : List α} {r s : Text}, xs.length = ys.length →
      fmtItems f xs ++ ']' :: r = fmtItems f ys ++ ']' :: s → xs = ys ∧ r = s
  | [], [], r, s, _, h => by simpa [fmtItems] using h
  | [x], [y], r, s, _, h => by
    obtain ⟨h1, rfl⟩ := text_split (hb x) (hb y) h
    exact ⟨by rw [hf _ _ h1], rfl⟩
  | x :: x' :: xs, y :: y' :: ys, r, s, hl, h => by
    simp only [fmtItems, List.append_assoc, List.cons_append] at h
    obtain ⟨h1, h2⟩ := text_split (hc x) (hc y) h
    obtain ⟨h3, rfl⟩ := fmtItems_inj hf hc hb (xs := x' :: xs) (ys := y' :: ys) (by simpa using hl)
      (List.cons.inj h2).2
    exact ⟨by rw [hf _ _ h1, h3], rfl⟩
  | [], _ :: _, _, _, hl, _ => by simp at hl
  | _ :: _, [], _, _, hl, _ => by simp at hl
  | [_], _ :: _ :: _, _, _, hl, _ => by simp at hl
  | _ :: _ :: _, [_], _, _, hl, _ => by simp at hl

theorem fmtSlice_inj {α : Type} {f : α → Text} (hf : ∀ a b, f a = f b → a = b) (hc : ∀ a, ',' ∉ f a)
    (hb : ∀ a, ']' ∉ f a) {xs ys : List α} {r s : Text} (hl : xs.length = ys.length)
    (h : fmtSlice f xs ++ r = fmtSlice f ys ++ s) : xs = ys ∧ r = s := by
  unfold fmtSlice at h
  simp only [List.cons_append, List.append_assoc, List.nil_append, List.cons.injEq, true_and] at h
  exact fmtItems_inj hf hc hb hl h

theorem fmtHexSlice_inj {xs ys : List UInt8} {r s : Text} (hl : xs.length = ys.length)
    (h : fmtSlice fmtHex xs ++ r = fmtSlice fmtHex ys ++ s) : xs = ys ∧ r = s :=
  fmtSlice_inj (fun _ _ => fmtHex_inj) (fun a => (fmtHex_plain a).1) (fun a => (fmtHex_plain a).2) hl h

theorem fmtDecSlice_inj {xs ys : List UInt8} {r s : Text} (hl : xs.length = ys.length)
    (h : fmtSlice (fmtDec ·.toNat) xs ++ r = fmtSlice (fmtDec ·.toNat) ys ++ s) : xs = ys ∧ r = s :=
  fmtSlice_inj (fun _ _ h => UInt8.toNat_inj.mp (fmtDec_inj h)) (fun _ => not_mem_fmtDec rfl _)
    (fun _ => not_mem_fmtDec rfl _) hl h

/-- Two separators: a word that ends with the one is not a word that ends with the other. -/
theorem text_clash {x y : Char} (hxy : x ≠ y) {v w r s : Text} (hv : y ∉ v) (hw : x ∉ w)
    (h : v ++ x :: r = w ++ y :: s) : False := by
  induction v generalizing w with
  | nil =>
    cases w with
    | nil => exact hxy (List.cons.inj h).1
    | cons z w => exact hw (by rw [(List.cons.inj h).1]; simp)
  | cons a v ih =>
    cases w with
    | nil => exact hv (by rw [← (List.cons.inj h).1]; simp)
    | cons z w =>
      exact ih (fun hm => hv (List.mem_cons_of_mem _ hm)) (fun hm => hw (List.mem_cons_of_mem _ hm))
        (List.cons.inj h).2

/-- Slices whose lengths need not agree, for items that are not empty. -/
theorem fmtItems_inj' {α : Type} {f : α → Text} (hf : ∀ a b, f a = f b → a = b) (hc : ∀ a, ',' ∉ f a)
    (hb : ∀ a, ']' ∉ f a) (hn : ∀ a, f a ≠ []) : ∀ {xs ys : List α} {r s : Text},
      fmtItems f xs ++ ']' :: r = fmtItems f ys ++ ']' :: s → xs = ys ∧ r = s := by
  have start (y : α) (ys : List α) (r s : Text) : ']' :: r ≠ fmtItems f (y :: ys) ++ ']' :: s := by
    intro h
    have : ∃ z u, f y = z :: u := List.exists_cons_of_ne_nil (hn y)
    obtain ⟨z, u, e⟩ := this
    have hz := hb y
    rw [e] at hz
    cases ys with
    | nil =>
      rw [fmtItems, e] at h
      exact hz (by rw [(List.cons.inj h).1]; simp)
    | cons y' ys =>
      rw [fmtItems, e] at h
      exact hz (by rw [(List.cons.inj h).1]; simp)
  intro xs
  induction xs with
  | nil =>
    intro ys r s h
    cases ys with
    | nil => exact ⟨rfl, (List.cons.inj h).2⟩
    | cons y ys => exact absurd h (start _ _ _ _)
  | cons x xs ih =>
    intro ys r s h
    cases ys with
    | nil => exact absurd h.symm (start _ _ _ _)
    | cons y ys =>
      cases xs with
      | nil =>
        cases ys with
        | nil =>
          obtain ⟨h1, rfl⟩ := text_split (hb x) (hb y) h
          exact ⟨by rw [hf _ _ h1], rfl⟩
        | cons y' ys =>
          simp only [fmtItems, List.append_assoc, List.cons_append] at h
          exact (text_clash (by decide) (hc x) (hb y) h).elim
      | cons x' xs =>
        cases ys with
        | nil =>
          simp only [fmtItems, List.append_assoc, List.cons_append] at h
          exact (text_clash (by decide) (hb x) (hc y) h).elim
        | cons y' ys =>
          simp only [fmtItems, List.append_assoc, List.cons_append] at h
          obtain ⟨h1, h2⟩ := text_split (hc x) (hc y) h
          obtain ⟨h3, rfl⟩ := ih (List.cons.inj h2).2
          exact ⟨by rw [hf _ _ h1, h3], rfl⟩

theorem fmtDec_ne_nil (n : Nat) : fmtDec n ≠ [] := by
  intro h
  have := congrArg List.length h
  rw [fmtDec, List.length_nil] at this
  exact absurd this (Nat.pos_iff_ne_zero.mp Nat.length_toDigits_pos)

theorem fmtBytes_inj {xs ys : List UInt8} {r s : Text}
    (h : fmtSlice (fmtDec ·.toNat) xs ++ r = fmtSlice (fmtDec ·.toNat) ys ++ s) : xs = ys ∧ r = s := by
  unfold fmtSlice at h
  simp only [List.cons_append, List.append_assoc, List.nil_append, List.cons.injEq, true_and] at h
  exact fmtItems_inj' (f := fun b : UInt8 => fmtDec b.toNat) (fun _ _ h => UInt8.toNat_inj.mp (fmtDec_inj h))
    (fun _ => not_mem_fmtDec rfl _) (fun _ => not_mem_fmtDec rfl _) (fun _ => fmtDec_ne_nil _) h

theorem fmtInt8_plain (x : Int8) : ')' ∉ fmtInt8 x := by
  unfold fmtInt8
  split
  · simp only [List.mem_cons, not_or]
    exact ⟨by decide, not_mem_fmtDec rfl _⟩
  · exact not_mem_fmtDec rfl _

theorem fmtInt8_inj {x y : Int8} (h : fmtInt8 x = fmtInt8 y) : x = y := by
  have minus (m n : Nat) : '-' :: fmtDec m ≠ fmtDec n := fun e =>
    not_mem_fmtDec (x := '-') rfl n (by rw [← e]; simp)
  rw [← Int8.toInt_inj]
  unfold fmtInt8 at h
  split at h <;> split at h
  · have := fmtDec_inj (List.cons.inj h).2
    omega
  · exact absurd h (minus _ _)
  · exact absurd h.symm (minus _ _)
  · have := fmtDec_inj h
    omega

theorem fmtRssi_inj {x y : Option Int8} {r s : Text} (h : fmtRssi x ++ r = fmtRssi y ++ s) : x = y ∧ r = s := by
  have e : ")".toList = [')'] := by decide
  have e0 : "None".toList = 'N' :: "one".toList := by decide
  have e1 : "Some(".toList = 'S' :: "ome(".toList := by decide
  cases x with
  | none =>
    cases y with
    | none => exact ⟨rfl, List.append_cancel_left h⟩
    | some y =>
      rw [fmtRssi, fmtRssi, e0, e1] at h
      exact absurd (List.cons.inj h).1 (by decide)
  | some x =>
    cases y with
    | none =>
      rw [fmtRssi, fmtRssi, e0, e1] at h
      exact absurd (List.cons.inj h).1 (by decide)
    | some y =>
      rw [fmtRssi, fmtRssi, e] at h
      simp only [List.append_assoc, List.append_cancel_left_eq, List.cons_append, List.nil_append] at h
      obtain ⟨h1, h2⟩ := text_split (fmtInt8_plain x) (fmtInt8_plain y) h
      exact ⟨by rw [fmtInt8_inj h1], h2⟩

theorem bdAddr_debug_inj {a b : BdAddr} {r s : Text} (h : a.debug ++ r = b.debug ++ s) : a = b ∧ r = s := by
  unfold BdAddr.debug at h
  simp only [List.append_assoc, List.append_cancel_left_eq] at h
  obtain ⟨h1, h2⟩ := fmtBytes_inj h
  rcases a with ⟨a⟩
  rcases b with ⟨b⟩
  obtain rfl : a = b := Arr.ext' h1
  exact ⟨rfl, List.append_cancel_left h2⟩

theorem addrType_debug_inj {a b : BdAddrType} {r s : Text} (h : a.debug ++ r = b.debug ++ s) : a = b ∧ r = s := by
  have e0 : "Public(".toList = 'P' :: "ublic(".toList := by decide
  have e1 : "Random(".toList = 'R' :: "andom(".toList := by decide
  have d0 (x : BdAddr) : (BdAddrType.pub x).debug = 'P' :: ("ublic(".toList ++ x.debug ++ ")".toList) := by
    show "Public(".toList ++ x.debug ++ ")".toList = _
    rw [e0]
    rfl
  have d1 (x : BdAddr) : (BdAddrType.random x).debug = 'R' :: ("andom(".toList ++ x.debug ++ ")".toList) := by
    show "Random(".toList ++ x.debug ++ ")".toList = _
    rw [e1]
    rfl
  generalize "ublic(".toList = t0 at d0
  generalize "andom(".toList = t1 at d1
  generalize ")".toList = t2 at d0 d1
  rcases a with a | a <;> rcases b with b | b <;> simp only [d0, d1, List.cons_append, List.cons.injEq] at h
  · simp only [true_and, List.append_assoc, List.append_cancel_left_eq] at h
    obtain ⟨h1, h2⟩ := bdAddr_debug_inj h
    exact ⟨by rw [h1], List.append_cancel_left h2⟩
  · exact absurd h.1 (by decide)
  · exact absurd h.1 (by decide)
  · simp only [true_and, List.append_assoc, List.append_cancel_left_eq] at h
    obtain ⟨h1, h2⟩ := bdAddr_debug_inj h
    exact ⟨by rw [h1], List.append_cancel_left h2⟩

theorem advertisementEvent_debug_inj {a b : AdvertisementEvent} (h : a.debug = b.debug) : a = b := by
  revert a b
  have : ∀ a ∈ [AdvertisementEvent.advertisement, .directAdvertisement, .scan, .nonConnectableAdvertisement,
      .scanResponse], ∀ b ∈ [AdvertisementEvent.advertisement, .directAdvertisement, .scan,
      .nonConnectableAdvertisement, .scanResponse], a.debug = b.debug → a = b := by decide +kernel
  intro a b
  exact this a (by cases a <;> simp) b (by cases b <;> simp)

theorem advertisementEvent_debug_plain (a : AdvertisementEvent) : ',' ∉ a.debug := by
  cases a <;> decide +kernel

theorem advertisement_debug_inj {a b : LeAdvertisement} {r s : Text} (h : a.debug ++ r = b.debug ++ s) :
    a = b ∧ r = s := by
  have e : ", address: ".toList = ',' :: " address: ".toList := by decide
  unfold LeAdvertisement.debug at h
  rw [e] at h
  simp only [List.append_assoc, List.append_cancel_left_eq, List.cons_append] at h
  obtain ⟨h1, h⟩ := text_split (advertisementEvent_debug_plain _) (advertisementEvent_debug_plain _) h
  obtain ⟨h2, h⟩ := addrType_debug_inj (List.append_cancel_left h)
  obtain ⟨h3, h⟩ := fmtBytes_inj (List.append_cancel_left h)
  obtain ⟨h4, h5⟩ := fmtRssi_inj (List.append_cancel_left h)
  rcases a with ⟨t, ad, d, x⟩
  rcases b with ⟨t', ad', d', x'⟩
  have h1 := advertisementEvent_debug_inj h1
  simp only at h1 h2 h3 h4
  subst h1 h2 h3 h4
  exact ⟨rfl, List.append_cancel_left h5⟩

theorem advertisement_debug_head (a : LeAdvertisement) : ∃ t, a.debug = 'L' :: t := by
  have : "LeAdvertisement { event_type: ".toList = 'L' :: "eAdvertisement { event_type: ".toList := by decide
  exact ⟨_, by unfold LeAdvertisement.debug; rw [this]; rfl⟩

theorem advertisements_debug_inj : ∀ {as bs : List LeAdvertisement},
    (as.map LeAdvertisement.debug).flatten ++ ['}'] = (bs.map LeAdvertisement.debug).flatten ++ ['}'] → as = bs
  | [], [], _ => rfl
  | [], b :: bs, h => by
    obtain ⟨t, ht⟩ := advertisement_debug_head b
    simp [ht] at h
  | a :: as, [], h => by
    obtain ⟨t, ht⟩ := advertisement_debug_head a
    simp [ht] at h
  | a :: as, b :: bs, h => by
    simp only [List.map_cons, List.flatten_cons, List.append_assoc] at h
    obtain ⟨rfl, h1⟩ := advertisement_debug_inj h
    rw [advertisements_debug_inj h1]

theorem pairDebug_inj {p q : NumberOfCompletedPacketsPair} {r s : Text} (h : p.debug ++ r = q.debug ++ s) :
    p = q ∧ r = s := by
  unfold NumberOfCompletedPacketsPair.debug at h
  have e1 : "), num_completed_packets: ".toList = ')' :: ", num_completed_packets: ".toList := by decide
  have e2 : " }".toList = ' ' :: ['}'] := by decide
  rw [e1, e2] at h
  simp only [List.append_assoc, List.append_cancel_left_eq, List.cons_append] at h
  obtain ⟨h1, h⟩ := text_split (not_mem_fmtDec rfl _) (not_mem_fmtDec rfl _) h
  simp only [List.append_cancel_left_eq] at h
  obtain ⟨h2, h⟩ := text_split (not_mem_fmtDec rfl _) (not_mem_fmtDec rfl _) h
  rcases p with ⟨⟨a⟩, b⟩
  rcases q with ⟨⟨a'⟩, b'⟩
  obtain rfl := UInt16.toNat_inj.mp (fmtDec_inj h1)
  obtain rfl := fmtDec_inj h2
  exact ⟨rfl, by simpa using h⟩

theorem pairDebug_head (p : NumberOfCompletedPacketsPair) : ∃ t, p.debug = 'N' :: t := by
  have : "NumberOfCompletedPacketsPair { conn_handle: ConnectionHandle(".toList =
    'N' :: "umberOfCompletedPacketsPair { conn_handle: ConnectionHandle(".toList := by decide
  exact ⟨_, by unfold NumberOfCompletedPacketsPair.debug; rw [this]; rfl⟩

theorem pairsDebug_inj : ∀ {ps qs : List NumberOfCompletedPacketsPair},
    (ps.map NumberOfCompletedPacketsPair.debug).flatten ++ ['}'] =
      (qs.map NumberOfCompletedPacketsPair.debug).flatten ++ ['}'] → ps = qs
  | [], [], _ => rfl
  | [], q :: qs, h => by
    obtain ⟨t, ht⟩ := pairDebug_head q
    simp [ht] at h
  | p :: ps, [], h => by
    obtain ⟨t, ht⟩ := pairDebug_head p
    simp [ht] at h
  | p :: ps, q :: qs, h => by
    simp only [List.map_cons, List.flatten_cons, List.append_assoc] at h
    obtain ⟨rfl, h1⟩ := pairDebug_inj h
    rw [pairsDebug_inj h1]

end Bt
