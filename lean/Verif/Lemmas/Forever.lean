import Verif.Spec.Forever
import Verif.Spec.Demo
import Verif.Lemmas.Sessions

/-! # Executions that never end -/

namespace Bt

open Spec

section
variable {σ ε α δ : Type} {stream : σ → List UInt8} {taken : σ → Nat} {m : Ctl σ ε α}
  {w : List UInt8 → List UInt8} {outcome : Res ε α → Option δ} {decode : List UInt8 → δ}
  {before : Nat → σ} {results : Nat → Res ε α}

theorem History.snoc {s s₁ s₂ s' : σ} {rs : List (Res ε α)} {r : Res ε α}
    (h : History stream taken m s rs s₁) (hr : m s₁ = (r, s₂)) (hs : stream s₂ <+: stream s')
    (ht : taken s' = taken s₂) : History stream taken m s (rs ++ [r]) s' := by
  induction h with
  | nil s => exact .call hr (.wait hs ht (.nil _))
  | wait h1 h2 _ ih => exact .wait h1 h2 (ih hr)
  | call h1 _ ih => exact .call h1 (ih hr)

theorem firstResults_succ (results : Nat → Res ε α) (n : Nat) :
    firstResults results (n + 1) = firstResults results n ++ [results n] := by
  simp [firstResults, List.range_succ]

theorem forever_history (hx : Forever stream taken m before results) (n : Nat) :
    History stream taken m (before 0) (firstResults results n) (before n) := by
  induction n with
  | zero => exact .nil _
  | succ n ih =>
    obtain ⟨h1, h2, h3⟩ := hx n
    rw [firstResults_succ]
    exact History.snoc ih (by rw [← h1]) h2 h3

theorem forever_stream (hm : Steps stream taken m w outcome decode)
    (hx : Forever stream taken m before results) {i j : Nat} (h : i ≤ j) :
    stream (before i) <+: stream (before j) := by
  induction h with
  | refl => exact List.prefix_rfl
  | @step j _ ih =>
    exact ih.trans ((hm (before j) _ _ rfl).1.trans (hx j).2.1)

theorem reported_mono {i j : Nat} (h : i ≤ j) :
    (firstResults results i).filterMap outcome <+: (firstResults results j).filterMap outcome := by
  induction h with
  | refl => exact List.prefix_rfl
  | @step j _ ih =>
    refine ih.trans ?_
    rw [firstResults_succ, List.filterMap_append]
    exact List.prefix_append _ _

/-- If again and again the packet pending is reported, every packet is reported. -/
theorem live_core (hw : PrefixFree w) {reported : Nat → List δ} {arrived pend : Nat → List UInt8}
    (hh : ∀ n, ∃ ps, (∀ p ∈ ps, Framed p) ∧ reported n = ps.map decode ∧ arrived n = wire w ps ++ pend n)
    (hmono : ∀ {i j}, i ≤ j → arrived i <+: arrived j) (hrep : ∀ {i j}, i ≤ j → reported i <+: reported j)
    (hfair : ∀ i, ∃ j, i ≤ j ∧ ∀ p tail, Framed p → pend j = w p ++ tail →
      (reported j).length < (reported (j + 1)).length)
    {packets : List (List UInt8)} (hf : ∀ p ∈ packets, Framed p) {i : Nat} (ha : wire w packets <+: arrived i) :
    ∃ n, i ≤ n ∧ packets.map decode <+: reported n := by
  have known : ∀ n, i ≤ n → ∃ ps, (∀ p ∈ ps, Framed p) ∧ reported n = ps.map decode ∧
      (ps <+: packets ∨ packets <+: ps) ∧ wire w packets <+: wire w ps ++ pend n := by
    intro n hn
    obtain ⟨ps, h1, h2, h4⟩ := hh n
    have h5 := ha.trans (hmono hn)
    rw [h4] at h5
    obtain ⟨t, ht⟩ := id h5
    exact ⟨ps, h1, h2, wire_comparable hw ps packets _ t h1 hf ht.symm, h5⟩
  have count : ∀ k, k ≤ packets.length → ∃ n, i ≤ n ∧ k ≤ (reported n).length := by
    intro k
    induction k with
    | zero => exact fun _ => ⟨i, Nat.le_refl i, Nat.zero_le _⟩
    | succ k ih =>
      intro hk
      obtain ⟨n, hn, hl⟩ := ih (by omega)
      obtain ⟨j, hj, hfj⟩ := hfair n
      have hl' := Nat.le_trans hl (hrep hj).length_le
      by_cases hdone : k + 1 ≤ (reported j).length
      · exact ⟨j, by omega, hdone⟩
      obtain ⟨ps, h1, h2, h3, h4⟩ := known j (by omega)
      have hpl : (reported j).length = ps.length := by rw [h2, List.length_map]
      have hpre : ps <+: packets := by
        rcases h3 with h3 | h3
        · exact h3
        · have := h3.length_le
          omega
      obtain ⟨rest, rfl⟩ := hpre
      cases rest with
      | nil => simp only [List.append_nil] at hk; omega
      | cons q qs =>
        obtain ⟨t, ht⟩ := h4
        have hq : pend j = w q ++ (wire w qs ++ t) := by
          have : wire w (ps ++ q :: qs) = wire w ps ++ (w q ++ wire w qs) := by simp [wire]
          rw [this, List.append_assoc] at ht
          rw [← List.append_cancel_left ht, List.append_assoc]
        have := hfj q _ (hf q (by simp)) hq
        exact ⟨j + 1, by omega, by omega⟩
  obtain ⟨n, hn, hl⟩ := count _ (Nat.le_refl _)
  obtain ⟨ps, h1, h2, h3, -⟩ := known n hn
  refine ⟨n, hn, ?_⟩
  rw [h2]
  rw [h2, List.length_map] at hl
  rcases h3 with h3 | h3
  · rw [h3.eq_of_length (Nat.le_antisymm h3.length_le hl)]
    exact List.prefix_rfl
  · exact h3.map _

/-- If again and again a call reports the packet pending, every packet is reported. -/
theorem live {fair : σ → Prop} (hw : PrefixFree w) (hm : Steps stream taken m w outcome decode)
    (hp : ∀ {s p tail}, fair s → Framed p → pending stream taken s = w p ++ tail →
      outcome (m s).1 ≠ none)
    (hx : Forever stream taken m before results) (hfair : ∀ i, ∃ j, i ≤ j ∧ fair (before j))
    {packets : List (List UInt8)} (hf : ∀ p ∈ packets, Framed p) {i : Nat}
    (ha : wire w packets <+: (stream (before i)).drop (taken (before 0))) :
    ∃ n, packets.map decode <+: (firstResults results n).filterMap outcome := by
  obtain ⟨n, -, hn⟩ := live_core (decode := decode) hw
    (reported := fun n => (firstResults results n).filterMap outcome)
    (arrived := fun n => (stream (before n)).drop (taken (before 0)))
    (pend := fun n => pending stream taken (before n))
    (fun n => by
      obtain ⟨-, ps, h1, h2, -, h4⟩ := history hm (forever_history hx n)
      exact ⟨ps, h1, h2, h4⟩)
    (fun hij => prefix_drop (forever_stream hm hx hij) _) (fun hij => reported_mono hij)
    (fun i => by
      obtain ⟨j, hj, hfj⟩ := hfair i
      refine ⟨j, hj, fun p tail hfp hq => ?_⟩
      have ho := hp hfj hfp hq
      rw [(hx j).1] at ho
      simp only [firstResults_succ, List.filterMap_append, List.length_append]
      cases hc : outcome (results j) with
      | none => exact absurd hc ho
      | some d => simp only [List.filterMap_cons, hc, List.filterMap_nil, List.length_singleton]; omega) hf ha
  exact ⟨n, hn⟩

theorem forever_after (s : σ) :
    Forever stream taken m (after m s) (fun i => (m (after m s i)).1) :=
  fun _ => ⟨rfl, List.prefix_rfl, rfl⟩

end

section
variable {σ E : Type} {c : Cfg} {V : Vendor} {k : Controller σ E}
  {stream : σ → List UInt8} {taken : σ → Nat}

theorem peek_serves (hd : Delivers k stream taken) {n : Nat} {s : σ} (hs : ServesNext k stream taken (n + 1) s)
    {i : Nat} {b : UInt8} (hb : (pending stream taken s)[i]? = some b) :
    ∃ s', k.peek i s = (.ok b, s') ∧ pending stream taken s <+: pending stream taken s' ∧
      ServesNext k stream taken n s' := by
  have hi : i < (pending stream taken s).length := by
    rcases Nat.lt_or_ge i (pending stream taken s).length with h | h
    · exact h
    · rw [List.getElem?_eq_none h] at hb; cases hb
  obtain ⟨b', hb'⟩ := hs.1 i hi
  have h3 := hs.2.2.1 i
  rcases he : k.peek i s with ⟨r, s'⟩
  rw [he] at hb' h3
  simp only at hb' h3
  subst hb'
  obtain ⟨-, hst, ht, hv⟩ := hd.peek _ _ _ _ he
  have hm := pending_mono hst ht
  have h4 := hv b' rfl
  have h5 := prefix_get hm hb
  unfold pending at h5
  rw [List.getElem?_drop, ht, h4] at h5
  cases h5
  exact ⟨s', rfl, hm, h3⟩

theorem uart_serves (hd : Delivers k stream taken) {s : σ} (hs : ServesNext k stream taken 3 s)
    {p tail : List UInt8} (hf : Framed p) (hp : pending stream taken s = 0x04 :: p ++ tail) :
    uartOutcome (Uart.read c V k s).1 ≠ none := by
  obtain ⟨code, ps, hl, rfl⟩ := hf
  rw [uartRead_eq]
  obtain ⟨s₁, h0, m1, hs1⟩ := peek_serves hd hs (i := 0) (b := 0x04) (by rw [hp]; rfl)
  rw [h0]
  simp only [if_true]
  obtain ⟨s₂, h2, m2, hs2⟩ := peek_serves hd hs1 (i := 2) (b := UInt8.ofNat ps.length)
    (prefix_get m1 (by rw [hp]; rfl))
  rw [h2]
  simp only
  have hn : (UInt8.ofNat ps.length).toNat = ps.length := by rw [UInt8.toNat_ofNat']; omega
  obtain ⟨got, hg⟩ := hs2.2.1 (3 + (UInt8.ofNat ps.length).toNat) (by
    have := (m1.trans m2).length_le
    rw [hp] at this
    simp only [frame, List.cons_append, List.length_cons, List.length_append] at this
    omega)
  rcases h3 : k.readInto (3 + (UInt8.ofNat ps.length).toNat) s₂ with ⟨r3, s₃⟩
  rw [h3] at hg
  simp only at hg
  subst hg
  simp only
  cases Event.new c V (got.val.drop 1) <;> simp [uartResult, uartOutcome]

theorem link_serves (hd : Delivers k stream taken) {s : σ} (hs : ServesNext k stream taken 2 s)
    {p tail : List UInt8} (hf : Framed p) (hp : pending stream taken s = p ++ tail) :
    linkOutcome (EventLink.read c V k s).1 ≠ none := by
  obtain ⟨code, ps, hl, rfl⟩ := hf
  rw [linkRead_eq]
  obtain ⟨s₂, h2, m2, hs2⟩ := peek_serves hd hs (i := 1) (b := UInt8.ofNat ps.length) (by rw [hp]; rfl)
  rw [h2]
  simp only
  obtain ⟨got, hg⟩ := hs2.2.1 (2 + (UInt8.ofNat ps.length).toNat) (packet_fits hl hp m2)
  rcases h3 : k.readInto (2 + (UInt8.ofNat ps.length).toNat) s₂ with ⟨r3, s₃⟩
  rw [h3] at hg
  simp only at hg
  subst hg
  simp only
  cases Event.new c V got.val <;> simp [linkResult, linkOutcome]

/-- If nothing arrives during the calls of the controller, nothing arrives during a read. -/
theorem uart_quiet (hq : Quiet k stream taken) (s : σ) : stream (Uart.read c V k s).2 = stream s := by
  rw [uartRead_eq]
  have h0 := (hq.peek 0 s).1
  rcases heh0 : k.peek 0 s with ⟨r, s₁⟩
  rw [heh0] at h0
  cases r with
  | panic => exact h0
  | err e => exact h0
  | ok x =>
    simp only at h0 ⊢
    split
    · have h2 := (hq.peek 2 s₁).1
      rcases heh2 : k.peek 2 s₁ with ⟨r, s₂⟩
      rw [heh2] at h2
      cases r with
      | panic => exact h2.trans h0
      | err e => exact h2.trans h0
      | ok l =>
        simp only at h2 ⊢
        have h3 := (hq.readInto (3 + l.toNat) s₂).1
        rcases heh3 : k.readInto (3 + l.toNat) s₂ with ⟨r, s₃⟩
        rw [heh3] at h3
        cases r <;> exact h3.trans (h2.trans h0)
    · exact h0

theorem prompt_serves (hp : Prompt k stream taken) : ∀ (n : Nat) (s : σ), ServesNext k stream taken n s
  | 0, _ => trivial
  | n + 1, s => ⟨fun i => hp.peek i s, fun i => hp.readInto i s, fun _ => prompt_serves hp n _,
      fun _ => prompt_serves hp n _⟩

end

/-! ## The controller every fourth call of which fails -/

theorem wobbly_call {α : Type} (call : Ctl Fifo (Nb Unit) α) (s : Fifo × Nat) :
    (fourthFails call s).2.2 = s.2 + 1 ∧ (s.2 % 4 = 3 → (fourthFails call s).1 = .err (.other ())) := by
  simp only [fourthFails]
  split
  · exact ⟨rfl, fun _ => rfl⟩
  · exact ⟨rfl, fun h => absurd h (by assumption)⟩

theorem wobbly_serves (s : Fifo × Nat) : ∀ n, s.2 % 4 + n ≤ 3 → ServesNext wobbly (·.1.1) (·.1.2) n s := by
  intro n
  induction n generalizing s with
  | zero => exact fun _ => trivial
  | succ n ih =>
    intro h
    have hne : ¬ s.2 % 4 = 3 := by omega
    refine ⟨fun i hi => ?_, fun i hi => ?_, fun i => ih _ ?_, fun i => ih _ ?_⟩
    · simp only [wobbly, fourthFails, if_neg hne]
      exact fifo_prompt.peek i s.1 hi
    · simp only [wobbly, fourthFails, if_neg hne]
      exact fifo_prompt.readInto i s.1 hi
    · have := (wobbly_call (fifo.peek i) s).1
      show (fourthFails (fifo.peek i) s).2.2 % 4 + n ≤ 3
      omega
    · have := (wobbly_call (fifo.readInto i) s).1
      show (fourthFails (fifo.readInto i) s).2.2 % 4 + n ≤ 3
      omega

/-- A read does not go on after a fourth call. -/
theorem wobbly_read {c : Cfg} {V : Vendor} (s : Fifo × Nat) :
    s.2 < (Uart.read c V wobbly s).2.2 ∧ (Uart.read c V wobbly s).2.2 ≤ 4 * (s.2 / 4 + 1) := by
  rw [uartRead_eq]
  have h0 : (wobbly.peek 0 s).2.2 = s.2 + 1 ∧ (s.2 % 4 = 3 → (wobbly.peek 0 s).1 = .err (.other ())) :=
    wobbly_call _ s
  rcases he0 : wobbly.peek 0 s with ⟨r, s₁⟩
  rw [he0] at h0
  simp only at h0
  cases r with
  | panic => simp only; omega
  | err e => simp only; omega
  | ok x =>
    have n0 : ¬ s.2 % 4 = 3 := fun h => by have := h0.2 h; cases this
    simp only
    split
    · have h1 : (wobbly.peek 2 s₁).2.2 = s₁.2 + 1 ∧ (s₁.2 % 4 = 3 → (wobbly.peek 2 s₁).1 = .err (.other ())) :=
        wobbly_call _ s₁
      rcases he1 : wobbly.peek 2 s₁ with ⟨r, s₂⟩
      rw [he1] at h1
      simp only at h1
      cases r with
      | panic => simp only; omega
      | err e => simp only; omega
      | ok l =>
        have n1 : ¬ s₁.2 % 4 = 3 := fun h => by have := h1.2 h; cases this
        simp only
        have h2 : (wobbly.readInto (3 + l.toNat) s₂).2.2 = s₂.2 + 1 := (wobbly_call _ s₂).1
        rcases he2 : wobbly.readInto (3 + l.toNat) s₂ with ⟨r, s₃⟩
        rw [he2] at h2
        simp only at h2
        cases r <;> simp only <;> omega
    · simp only; omega

theorem wobbly_fair {c : Cfg} {V : Vendor} (s : Fifo × Nat) :
    Fair wobbly (·.1.1) (·.1.2) 3 (after (Uart.read c V wobbly) s) := by
  have step (i : Nat) := wobbly_read (c := c) (V := V) (after (Uart.read c V wobbly) s i)
  intro i
  have key : ∀ d i, 4 - (after (Uart.read c V wobbly) s i).2 % 4 ≤ d →
      ∃ j, i ≤ j ∧ (after (Uart.read c V wobbly) s j).2 % 4 = 0 := by
    intro d
    induction d with
    | zero => intro i h; omega
    | succ d ih =>
      intro i h
      by_cases h0 : (after (Uart.read c V wobbly) s i).2 % 4 = 0
      · exact ⟨i, Nat.le_refl i, h0⟩
      · by_cases h1 : (after (Uart.read c V wobbly) s (i + 1)).2 % 4 = 0
        · exact ⟨i + 1, Nat.le_succ i, h1⟩
        · obtain ⟨j, hj, hz⟩ := ih (i + 1) (by
            have := step i
            have e : after (Uart.read c V wobbly) s (i + 1) =
              (Uart.read c V wobbly (after (Uart.read c V wobbly) s i)).2 := rfl
            rw [← e] at this
            omega)
          exact ⟨j, by omega, hz⟩
  obtain ⟨j, hj, hz⟩ := key 4 i (by omega)
  exact ⟨j, hj, wobbly_serves _ 3 (by omega)⟩

/-! ## The controller every third call of which fails -/

theorem unlucky_serves (s : Fifo × Nat) : ∀ n, s.2 % 3 + n ≤ 2 → ServesNext unlucky (·.1.1) (·.1.2) n s := by
  intro n
  induction n generalizing s with
  | zero => exact fun _ => trivial
  | succ n ih =>
    intro h
    have hne : ¬ s.2 % 3 = 2 := by omega
    refine ⟨fun i hi => ?_, fun i hi => ?_, fun i => ih _ ?_, fun i => ih _ ?_⟩
    · simp only [unlucky, thirdFails, if_neg hne]
      exact fifo_prompt.peek i s.1 hi
    · simp only [unlucky, thirdFails, if_neg hne]
      exact fifo_prompt.readInto i s.1 hi
    · simp only [unlucky, thirdFails, if_neg hne]
      omega
    · simp only [unlucky, thirdFails, if_neg hne]
      omega

end Bt
