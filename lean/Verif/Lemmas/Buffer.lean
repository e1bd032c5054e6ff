import Verif.Spec.Buffer
import Verif.Lemmas.Forever

/-! # Receive buffers of limited size -/

namespace Bt

open Spec

theorem wire_append (w : List UInt8 → List UInt8) (ps qs : List (List UInt8)) :
    wire w (ps ++ qs) = wire w ps ++ wire w qs := by simp [wire]

theorem wire_mono (w : List UInt8 → List UInt8) {ps qs : List (List UInt8)} (h : ps <+: qs) :
    wire w ps <+: wire w qs := by
  obtain ⟨t, rfl⟩ := h
  rw [wire_append]
  exact List.prefix_append _ _

section
variable {σ ε α δ : Type} {stream : σ → List UInt8} {taken : σ → Nat} {m : Ctl σ ε α}
  {w : List UInt8 → List UInt8} {outcome : Res ε α → Option δ} {decode : List UInt8 → δ}
  {before : Nat → σ} {results : Nat → Res ε α}

/-- With room for each packet, all the packets arrive. -/
theorem all_arrive {fair : σ → Prop} {cap : Nat} (hw : PrefixFree w) (hm : Steps stream taken m w outcome decode)
    (hp : ∀ {s p tail}, fair s → Framed p → pending stream taken s = w p ++ tail → outcome (m s).1 ≠ none)
    (hx : Forever stream taken m before results) (hfair : ∀ i, ∃ j, i ≤ j ∧ fair (before j))
    {packets : List (List UInt8)} (hf : ∀ p ∈ packets, Framed p) (hcap : ∀ p ∈ packets, (w p).length ≤ cap)
    (hfl : FlowControlled stream taken before cap (wire w packets)) :
    ∃ i, wire w packets <+: received stream taken before i := by
  have first : ∀ k, k ≤ packets.length → ∃ i, wire w (packets.take k) <+: received stream taken before i := by
    intro k
    induction k with
    | zero => exact fun _ => ⟨0, List.nil_prefix⟩
    | succ k ih =>
      intro hk
      obtain ⟨i, hi⟩ := ih (by omega)
      obtain ⟨n, hn⟩ := live hw hm hp hx hfair (packets := packets.take k)
        (fun p h => hf p (List.mem_of_mem_take h)) hi
      have go : ∀ d j, n ≤ j → (wire w packets).length - (received stream taken before j).length ≤ d →
          ∃ i, wire w (packets.take (k + 1)) <+: received stream taken before i := by
        intro d
        induction d with
        | zero =>
          intro j _ hd
          refine ⟨j, (wire_mono w (List.take_prefix _ _)).trans ?_⟩
          rcases hfl.order j with h | h
          · rw [h.eq_of_length (Nat.le_antisymm h.length_le (by omega))]
            exact List.prefix_rfl
          · exact h
        | succ d ihd =>
          intro j hj hd
          rcases hfl.order j with h | h
          rotate_left
          · exact ⟨j, (wire_mono w (List.take_prefix _ _)).trans h⟩
          by_cases hall : wire w packets <+: received stream taken before j
          · exact ⟨j, (wire_mono w (List.take_prefix _ _)).trans hall⟩
          obtain ⟨-, ps, h1, h2, -, h4⟩ := history hm (forever_history hx j)
          have h4' : received stream taken before j = wire w ps ++ pending stream taken (before j) := h4
          have hlen : k ≤ ps.length := by
            have := (hn.trans (reported_mono (outcome := outcome) (results := results) hj)).length_le
            rw [h2, List.length_map, List.length_map, List.length_take] at this
            omega
          obtain ⟨t, ht⟩ := id h
          rw [h4', List.append_assoc] at ht
          have hpre : ps <+: packets := by
            rcases wire_comparable hw ps packets _ [] h1 hf (ht.trans (List.append_nil _).symm) with h | h
            · exact h
            · exact absurd ((wire_mono w h).trans (by rw [h4']; exact List.prefix_append _ _)) hall
          by_cases hmore : k + 1 ≤ ps.length
          · refine ⟨j, List.IsPrefix.trans (wire_mono w (?_ : packets.take (k + 1) <+: ps))
              (by rw [h4']; exact List.prefix_append _ _)⟩
            obtain ⟨u, rfl⟩ := hpre
            rw [List.take_append_of_le_length hmore]
            exact List.take_prefix _ _
          · obtain ⟨rest, rfl⟩ := hpre
            cases rest with
            | nil => simp only [List.append_nil] at hk; omega
            | cons q qs =>
              rw [wire_append, wire_cons] at ht
              have ht' := List.append_cancel_left ht
              have htake : (ps ++ q :: qs).take (k + 1) = ps ++ [q] := by
                have : k + 1 = ps.length + 1 := by omega
                rw [this, List.take_append, List.take_of_length_le (by omega)]
                simp
              by_cases hq : (w q).length ≤ (pending stream taken (before j)).length
              · refine ⟨j, ?_⟩
                rw [htake, wire_append, h4']
                refine (List.prefix_append_right_inj _).mpr ?_
                have e : wire w [q] = w q := by simp [wire]
                rw [e]
                exact List.prefix_of_prefix_length_le (List.prefix_append _ _)
                  (by rw [← ht']; exact List.prefix_append _ _) hq
              · obtain ⟨j', hj', hgrow⟩ := hfl.room j (by
                  have := hcap q (by simp)
                  omega) hall
                exact ihd j' (by omega) (by omega)
      exact go _ n (Nat.le_refl n) (Nat.le_refl _)
  obtain ⟨i, hi⟩ := first _ (Nat.le_refl _)
  exact ⟨i, by rwa [List.take_of_length_le (Nat.le_refl _)] at hi⟩

/-- If no call takes more than `cap` bytes, only packets of at most `cap` bytes are taken. -/
theorem small_packets {cap : Nat} (hm : Steps stream taken m w outcome decode)
    (hc : ∀ s, taken (m s).2 ≤ taken s + cap) {s s' : σ} {rs : List (Res ε α)}
    (h : History stream taken m s rs s') : ∃ packets, (∀ p ∈ packets, Framed p ∧ (w p).length ≤ cap) ∧
      rs.filterMap outcome = packets.map decode ∧
      (stream s').drop (taken s) = wire w packets ++ (stream s').drop (taken s') := by
  induction h with
  | nil s => exact ⟨[], by simp, rfl, rfl⟩
  | wait hs ht _ ih =>
    obtain ⟨ps, h1, h2, h4⟩ := ih
    rw [ht] at h4
    exact ⟨ps, h1, h2, h4⟩
  | @call s r s₁ rs s' hr hrest ih =>
    obtain ⟨ps, h1, h2, h4⟩ := ih
    obtain ⟨hs', -⟩ := history hm hrest
    obtain ⟨hs, ⟨ht, ho⟩ | ⟨p, hp, ht, hb, ho⟩⟩ := hm _ _ _ hr
    · rw [ht] at h4
      exact ⟨ps, h1, by rw [List.filterMap_cons, ho]; exact h2, h4⟩
    · have hle' := hc s
      rw [hr] at hle'
      simp only at hle'
      refine ⟨p :: ps, ?_, ?_, ?_⟩
      · intro q hq
        rcases List.mem_cons.mp hq with rfl | hq
        · exact ⟨hp, by omega⟩
        · exact h1 q hq
      · rw [List.filterMap_cons, ho]
        simp only [List.map_cons, h2]
      · rw [wire_cons, List.append_assoc, ← h4]
        obtain ⟨t, ht'⟩ := hs'
        have hle : (w p).length ≤ ((stream s₁).drop (taken s)).length := by rw [hb]; simp
        rw [List.length_drop] at hle
        by_cases hle' : taken s ≤ (stream s₁).length
        · rw [← ht', List.drop_append_of_le_length hle', hb, ht, List.append_assoc,
            List.drop_append_of_le_length (by omega)]
        · have h0 : w p = [] := by
            have : (stream s₁).drop (taken s) = [] := List.drop_of_length_le (by omega)
            rw [this] at hb
            exact (List.append_eq_nil_iff.mp hb.symm).1
          rw [ht, h0]
          rfl

/-- A packet that does not fit is not reported, nor is anything after it. -/
theorem stuck_at {cap : Nat} (hw : PrefixFree w) (hm : Steps stream taken m w outcome decode)
    (hc : ∀ s, taken (m s).2 ≤ taken s + cap) {s s' : σ} {rs : List (Res ε α)}
    (h : History stream taken m s rs s') {packets : List (List UInt8)} {p rest : List UInt8}
    (hf : ∀ q ∈ packets, Framed q) (hp : Framed p) (hbig : cap < (w p).length)
    (hl : (stream s').drop (taken s) <+: wire w packets ++ w p ++ rest) :
    rs.filterMap outcome <+: packets.map decode := by
  obtain ⟨ps, h1, h2, h4⟩ := small_packets hm hc h
  rw [h2]
  obtain ⟨t, ht⟩ := hl
  rw [h4, List.append_assoc] at ht
  have e : wire w (packets ++ [p]) = wire w packets ++ w p := by rw [wire_append]; simp [wire]
  rw [← e] at ht
  have hno : p ∉ ps := fun hi => by have := (h1 p hi).2; omega
  have hf' : ∀ q ∈ packets ++ [p], Framed q := by
    intro q hq
    rcases List.mem_append.mp hq with h | h
    · exact hf q h
    · rw [List.mem_singleton.mp h]; exact hp
  rcases wire_comparable hw ps (packets ++ [p]) _ _ (fun q hq => (h1 q hq).1) hf' ht with h | h
  · refine List.IsPrefix.map _ (List.prefix_of_prefix_length_le h (List.prefix_append _ _) ?_)
    rcases Nat.lt_or_ge packets.length ps.length with hl | hl
    · exfalso
      have := h.eq_of_length (Nat.le_antisymm h.length_le (by simp; omega))
      exact hno (by rw [this]; simp)
    · exact hl
  · exact absurd (h.subset (by simp)) hno

end

section
variable {σ E : Type} {c : Cfg} {V : Vendor} {k : Controller σ E}
  {stream : σ → List UInt8} {taken : σ → Nat} {cap : Nat}

theorem uart_takes (hd : Delivers k stream taken) (hh : HoldsAtMost k cap) (s : σ) :
    taken (Uart.read c V k s).2 ≤ taken s + cap := by
  rw [uartRead_eq]
  rcases h0 : k.peek 0 s with ⟨r, s₁⟩
  obtain ⟨-, -, t0, -⟩ := hd.peek _ _ _ _ h0
  cases r with
  | panic => simp only; omega
  | err e => simp only; omega
  | ok x =>
    simp only
    split
    · rcases h2 : k.peek 2 s₁ with ⟨r, s₂⟩
      obtain ⟨-, -, t2, -⟩ := hd.peek _ _ _ _ h2
      cases r with
      | panic => simp only; omega
      | err e => simp only; omega
      | ok l =>
        simp only
        rcases h3 : k.readInto (3 + l.toNat) s₂ with ⟨r, s₃⟩
        obtain ⟨np, -, t3, t4⟩ := hd.readInto _ _ _ _ h3
        cases r with
        | panic => exact absurd rfl np
        | err e => have := t3 e rfl; simp only; omega
        | ok got =>
          have := (t4 got rfl).1
          have := hh (3 + l.toNat) s₂ got (by rw [h3])
          simp only
          omega
    · simp only; omega

theorem link_takes (hd : Delivers k stream taken) (hh : HoldsAtMost k cap) (s : σ) :
    taken (EventLink.read c V k s).2 ≤ taken s + cap := by
  rw [linkRead_eq]
  rcases h2 : k.peek 1 s with ⟨r, s₂⟩
  obtain ⟨-, -, t2, -⟩ := hd.peek _ _ _ _ h2
  cases r with
  | panic => simp only; omega
  | err e => simp only; omega
  | ok l =>
    simp only
    rcases h3 : k.readInto (2 + l.toNat) s₂ with ⟨r, s₃⟩
    obtain ⟨np, -, t3, t4⟩ := hd.readInto _ _ _ _ h3
    cases r with
    | panic => exact absurd rfl np
    | err e => have := t3 e rfl; simp only; omega
    | ok got =>
      have := (t4 got rfl).1
      have := hh (2 + l.toNat) s₂ got (by rw [h3])
      simp only
      omega

end

/-! ## The controller with a buffer -/

theorem ring_holds (cap : Nat) : HoldsAtMost (ring cap) cap := by
  intro n s got h
  simp only [ring] at h
  split at h
  · assumption
  · cases h

theorem ring_delivers (cap : Nat) : Delivers (ring cap) (ringStream cap) Prod.snd where
  peek n s r s' h := by
    simp only [ring] at h
    split at h
    · rename_i hn
      simp only [fifo] at h
      split at h
      · rename_i b hb
        obtain ⟨rfl, rfl⟩ := Prod.mk.inj h
        refine ⟨by simp, List.prefix_rfl, rfl, fun b' h => ?_⟩
        cases h
        rw [List.getElem?_drop] at hb
        rw [ringStream, List.getElem?_take, if_pos (by omega)]
        exact hb
      · obtain ⟨rfl, rfl⟩ := Prod.mk.inj h
        exact ⟨by simp, List.prefix_rfl, rfl, fun b' h => (by cases h)⟩
    · obtain ⟨rfl, rfl⟩ := Prod.mk.inj h
      exact ⟨by simp, List.prefix_rfl, rfl, fun b' h => (by cases h)⟩
  readInto n s r s' h := by
    simp only [ring] at h
    split at h
    · rename_i hn
      simp only [fifo] at h
      split at h
      · rename_i hl
        obtain ⟨rfl, rfl⟩ := Prod.mk.inj h
        refine ⟨by simp, ?_, fun e h => (by cases h), fun got h => ?_⟩
        · exact List.take_prefix_take_left (by simp only; omega)
        · cases h
          refine ⟨rfl, ?_⟩
          simp only [ringStream]
          rw [List.drop_take, List.take_take]
          congr 1
          omega
      · obtain ⟨rfl, rfl⟩ := Prod.mk.inj h
        exact ⟨by simp, List.prefix_rfl, fun _ _ => rfl, fun got h => (by cases h)⟩
    · obtain ⟨rfl, rfl⟩ := Prod.mk.inj h
      exact ⟨by simp, List.prefix_rfl, fun _ _ => rfl, fun got h => (by cases h)⟩

theorem ring_pending (cap : Nat) (s : Fifo) :
    pending (ringStream cap) Prod.snd s = (s.1.drop s.2).take cap := by
  simp only [pending, ringStream]
  rw [List.drop_take]
  congr 1
  omega

theorem ring_prompt (cap : Nat) : Prompt (ring cap) (ringStream cap) Prod.snd where
  peek n s h := by
    rw [ring_pending, List.length_take] at h
    simp only [ring]
    rw [if_pos (by omega)]
    exact fifo_prompt.peek n s (by simp only [pending]; omega)
  readInto n s h := by
    rw [ring_pending, List.length_take] at h
    simp only [ring]
    rw [if_pos (by omega)]
    exact fifo_prompt.readInto n s (by simp only [pending]; omega)

theorem ring_sent {cap n : Nat} (s : Fifo) :
    ((ring cap).peek n s).2.1 = s.1 ∧ ((ring cap).readInto n s).2.1 = s.1 := by
  simp only [ring, fifo]
  constructor
  · split
    · split <;> rfl
    · rfl
  · split
    · split <;> rfl
    · rfl

theorem ring_uart_sent {c : Cfg} {V : Vendor} {cap : Nat} (s : Fifo) : (Uart.read c V (ring cap) s).2.1 = s.1 := by
  rw [uartRead_eq]
  have h0 := (ring_sent (cap := cap) (n := 0) s).1
  rcases heh0 : (ring cap).peek 0 s with ⟨r, s₁⟩
  rw [heh0] at h0
  cases r with
  | panic => exact h0
  | err e => exact h0
  | ok x =>
    simp only at h0 ⊢
    split
    · have h2 := (ring_sent (cap := cap) (n := 2) s₁).1
      rcases heh2 : (ring cap).peek 2 s₁ with ⟨r, s₂⟩
      rw [heh2] at h2
      cases r with
      | panic => exact h2.trans h0
      | err e => exact h2.trans h0
      | ok l =>
        simp only at h2 ⊢
        have h3 := (ring_sent (cap := cap) (n := 3 + l.toNat) s₂).2
        rcases heh3 : (ring cap).readInto (3 + l.toNat) s₂ with ⟨r, s₃⟩
        rw [heh3] at h3
        cases r <;> exact h3.trans (h2.trans h0)
    · exact h0

theorem ring_link_sent {c : Cfg} {V : Vendor} {cap : Nat} (s : Fifo) :
    (EventLink.read c V (ring cap) s).2.1 = s.1 := by
  rw [linkRead_eq]
  have h2 := (ring_sent (cap := cap) (n := 1) s).1
  rcases heh2 : (ring cap).peek 1 s with ⟨r, s₂⟩
  rw [heh2] at h2
  cases r with
  | panic => exact h2
  | err e => exact h2
  | ok l =>
    simp only at h2 ⊢
    have h3 := (ring_sent (cap := cap) (n := 2 + l.toNat) s₂).2
    rcases heh3 : (ring cap).readInto (2 + l.toNat) s₂ with ⟨r, s₃⟩
    rw [heh3] at h3
    cases r <;> exact h3.trans h2

theorem ring_received {ε α : Type} {m : Ctl Fifo ε α} (hm : ∀ s, (m s).2.1 = s.1) (cap : Nat)
    (bytes : List UInt8) (i : Nat) :
    received (ringStream cap) Prod.snd (after m (bytes, 0)) i =
      bytes.take ((after m (bytes, 0) i).2 + cap) ∧
    pending (ringStream cap) Prod.snd (after m (bytes, 0) i) =
      (bytes.drop (after m (bytes, 0) i).2).take cap := by
  have h : (after m (bytes, 0) i).1 = bytes := by
    induction i with
    | zero => rfl
    | succ i ih => simp only [after, hm]; exact ih
  constructor
  · simp only [received, ringStream, h]
    rfl
  · rw [ring_pending, h]

/-- The buffer is only left unfilled when everything has been sent. -/
theorem ring_flow {ε α : Type} {m : Ctl Fifo ε α} (hm : ∀ s, (m s).2.1 = s.1) (cap : Nat) (bytes : List UInt8) :
    FlowControlled (ringStream cap) Prod.snd (after m (bytes, 0)) cap bytes where
  order i := .inl (by rw [(ring_received hm cap bytes i).1]; exact List.take_prefix _ _)
  room i hr hn := by
    exfalso
    apply hn
    rw [(ring_received hm cap bytes i).2, List.length_take, List.length_drop] at hr
    rw [(ring_received hm cap bytes i).1, List.take_of_length_le (by omega)]
    exact List.prefix_rfl

theorem callTimes_first {σ ε α : Type} (m : Ctl σ ε α) (s : σ) (n : Nat) :
    (callTimes m n s).1 = firstResults (fun i => (m (after m s i)).1) n := by
  have shift (s : σ) : ∀ i, after m (m s).2 i = after m s (i + 1) := by
    intro i
    induction i with
    | zero => rfl
    | succ i ih => simp only [after] at ih ⊢; rw [ih]
  induction n generalizing s with
  | zero => rfl
  | succ n ih =>
    simp only [callTimes, ih, firstResults, List.range_succ_eq_map, List.map_cons, List.map_map, shift]
    rfl

/-- The longest event packet. -/
theorem longest_framed : Framed (frame 0xFF (List.replicate 255 0)) :=
  ⟨0xFF, List.replicate 255 0, by rw [List.length_replicate]; omega, rfl⟩

theorem framed_length {p : List UInt8} (h : Framed p) : p.length ≤ 257 := by
  obtain ⟨code, ps, hl, rfl⟩ := h
  simp only [frame, List.length_cons]
  omega

end Bt
