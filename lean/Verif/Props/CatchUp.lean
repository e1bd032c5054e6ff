import Verif.Props.Forever
import Verif.Props.CreditsWire

/-! # C118: an application that keeps reading catches up, and stays caught up

What an application makes of the outcomes that are reported is arbitrary: `A` is what it keeps, `note` what it does with an
outcome. -/

namespace Bt

open Spec

section
variable {σ ε α δ A : Type} {stream : σ → List UInt8} {taken : σ → Nat} {m : Ctl σ ε α}
  {w : List UInt8 → List UInt8} {outcome : Res ε α → Option δ} {decode : List UInt8 → δ}
  {before : Nat → σ} {results : Nat → Res ε α}

/-- If no other bytes arrive than those of the packets, no more is reported than the packets. -/
theorem reported_at_most (hw : PrefixFree w) (hne : ∀ p, Framed p → w p ≠ [])
    (hm : Steps stream taken m w outcome decode) (hx : Forever stream taken m before results)
    {packets : List (List UInt8)} (hf : ∀ p ∈ packets, Framed p) {n : Nat}
    (hall : (stream (before n)).drop (taken (before 0)) <+: wire w packets) :
    (firstResults results n).filterMap outcome <+: packets.map decode := by
  obtain ⟨-, ps, h1, h2, -, h4⟩ := history hm (forever_history hx n)
  obtain ⟨t, ht⟩ := hall
  rw [h4, List.append_assoc] at ht
  rw [h2]
  refine List.IsPrefix.map _ (wire_prefix hw ps packets _ [] h1 hf (fun p u hp h => ?_)
    (ht.trans (List.append_nil _).symm))
  exact hne p hp (List.append_eq_nil_iff.mp h.symm).1

theorem catches_up (hw : PrefixFree w) (hne : ∀ p, Framed p → w p ≠ [])
    (hm : Steps stream taken m w outcome decode) (hx : Forever stream taken m before results)
    {packets : List (List UInt8)} (hf : ∀ p ∈ packets, Framed p)
    (hall : ∀ i, (stream (before i)).drop (taken (before 0)) <+: wire w packets)
    (hlive : ∃ n, packets.map decode <+: (firstResults results n).filterMap outcome)
    (note : A → δ → A) (a : A) :
    ∃ n, ∀ i, n ≤ i →
      ((firstResults results i).filterMap outcome).foldl note a = (packets.map decode).foldl note a := by
  obtain ⟨n, hn⟩ := hlive
  refine ⟨n, fun i hi => ?_⟩
  have h1 := hn.trans (reported_mono hi)
  have h2 := reported_at_most hw hne hm hx hf (hall i)
  rw [h1.eq_of_length (Nat.le_antisymm h1.length_le h2.length_le)]

/-- The number of outcomes reported grows by at most one with a call, so it passes through every number below one that it
reaches. -/
theorem reported_passes {k n : Nat} (h : k ≤ ((firstResults results n).filterMap outcome).length) :
    ∃ i, i ≤ n ∧ ((firstResults results i).filterMap outcome).length = k := by
  induction n with
  | zero =>
    have : k = 0 := by simpa [firstResults] using h
    exact ⟨0, Nat.le_refl 0, by simp [firstResults, this]⟩
  | succ n ih =>
    by_cases hk : k ≤ ((firstResults results n).filterMap outcome).length
    · obtain ⟨i, hi, he⟩ := ih hk
      exact ⟨i, by omega, he⟩
    · refine ⟨n + 1, Nat.le_refl _, ?_⟩
      have hl : ([results n].filterMap outcome).length ≤ 1 := List.length_filterMap_le outcome [results n]
      rw [firstResults_succ, List.filterMap_append, List.length_append] at h ⊢
      omega

theorem passes_through {ds : List δ} {n : Nat} (h : ds <+: (firstResults results n).filterMap outcome)
    (note : A → δ → A) (a : A) :
    ∃ i, ((firstResults results i).filterMap outcome).foldl note a = ds.foldl note a := by
  obtain ⟨i, hi, he⟩ := reported_passes (outcome := outcome) h.length_le
  refine ⟨i, ?_⟩
  have h1 : (firstResults results i).filterMap outcome <+: (firstResults results n).filterMap outcome := reported_mono hi
  rw [(List.prefix_of_prefix_length_le h1 h (Nat.le_of_eq he)).eq_of_length he]

end

variable {σ E A : Type} {c : Cfg} {V : Vendor} {k : Controller σ E}
  {stream : σ → List UInt8} {taken : σ → Nat} {before : Nat → σ}

theorem link_quiet (hq : Quiet k stream taken) (s : σ) : stream (EventLink.read c V k s).2 = stream s := by
  rw [linkRead_eq]
  have h2 := (hq.peek 1 s).1
  rcases heh2 : k.peek 1 s with ⟨r, s₂⟩
  rw [heh2] at h2
  cases r with
  | panic => exact h2
  | err e => exact h2
  | ok l =>
    simp only at h2 ⊢
    have h3 := (hq.readInto (2 + l.toNat) s₂).1
    rcases heh3 : k.readInto (2 + l.toNat) s₂ with ⟨r, s₃⟩
    rw [heh3] at h3
    cases r <;> exact h3.trans h2

theorem after_quiet {ε α : Type} {m : Ctl σ ε α} (h : ∀ s, stream (m s).2 = stream s) (s : σ) (i : Nat) :
    stream (after m s i) = stream s := by
  induction i with
  | zero => rfl
  | succ i ih => exact (h _).trans ih

/-- **C118.** If `read` is called for ever on a UART controller that may fail infinitely often but again and again serves
three calls in a row, the bytes of finitely many packets arrive, in any pieces at any time, and no others, then from some call
on what the application keeps is, for ever, what it would keep had it been given the packets one after the other. -/
theorem C118_uart (hd : Delivers k stream taken)
    {results : Nat → Res (Nb (UartError E V.VErr)) (UartPacket V)}
    (hx : Forever stream taken (Uart.read c V k) before results) (hfair : Fair k stream taken 3 before)
    (packets : List (List UInt8)) (hf : ∀ p ∈ packets, Framed p)
    (hall : ∀ i, (stream (before i)).drop (taken (before 0)) <+: uartBytes packets)
    (hcome : ∃ i, (stream (before i)).drop (taken (before 0)) = uartBytes packets)
    (note : A → Res V.EvErr V.Ev → A) (a : A) :
    ∃ n, ∀ i, n ≤ i → ((firstResults results i).filterMap uartOutcome).foldl note a =
      (packets.map (Event.new c V)).foldl note a := by
  obtain ⟨i, hi⟩ := hcome
  exact catches_up prefixFree_uart (fun p _ h => by simp at h) (uart_steps hd) hx hf hall
    (C76_every_packet hd hx hfair packets hf i (by rw [hi]; exact List.prefix_rfl)) note a

/-- Both packets are in the queue from the beginning; the application counts the events and the errors. -/
example : ∃ n, ∀ i, n ≤ i →
    ((firstResults (fun i => (Uart.read ⟨false, false⟩ demoVendor fifo
      (after (Uart.read ⟨false, false⟩ demoVendor fifo) (uartBytes [[0x10, 0x01, 0x2A], [0x1A, 0x01, 0x2A]], 0) i)).1) i).filterMap uartOutcome).foldl
      (fun (a : Nat × Nat) o => match o with
        | .ok _ => (a.1 + 1, a.2)
        | _ => (a.1, a.2 + 1)) (0, 0) = (1, 1) := by
  obtain ⟨n, h⟩ := C118_uart (σ := Fifo) (stream := Prod.fst) (taken := Prod.snd) (k := fifo) (c := ⟨false, false⟩)
    (V := demoVendor) fifo_delivers
    (forever_after (m := Uart.read ⟨false, false⟩ demoVendor fifo) (uartBytes [[0x10, 0x01, 0x2A], [0x1A, 0x01, 0x2A]], 0))
    (fun i => ⟨i, Nat.le_refl i, prompt_serves fifo_prompt _ _⟩) [[0x10, 0x01, 0x2A], [0x1A, 0x01, 0x2A]]
    (by intro p hp; simp only [List.mem_cons, List.not_mem_nil, or_false] at hp
        rcases hp with rfl | rfl
        · exact ⟨0x10, [0x2A], by decide, rfl⟩
        · exact ⟨0x1A, [0x2A], by decide, rfl⟩)
    (fun i => by rw [after_quiet (uart_quiet fifo_quiet)]; exact List.prefix_rfl) ⟨0, rfl⟩
    (fun (a : Nat × Nat) o => match o with
      | .ok _ => (a.1 + 1, a.2)
      | _ => (a.1, a.2 + 1)) (0, 0)
  exact ⟨n, fun i hi => (h i hi).trans (by decide +kernel)⟩

/-- **C118** for an event link, where two calls in a row are enough. -/
theorem C118_event_link (hd : Delivers k stream taken)
    {results : Nat → Res (Nb (EventLinkError E V.VErr)) V.Ev}
    (hx : Forever stream taken (EventLink.read c V k) before results) (hfair : Fair k stream taken 2 before)
    (packets : List (List UInt8)) (hf : ∀ p ∈ packets, Framed p)
    (hall : ∀ i, (stream (before i)).drop (taken (before 0)) <+: packets.flatten)
    (hcome : ∃ i, (stream (before i)).drop (taken (before 0)) = packets.flatten)
    (note : A → Res V.EvErr V.Ev → A) (a : A) :
    ∃ n, ∀ i, n ≤ i → ((firstResults results i).filterMap linkOutcome).foldl note a =
      (packets.map (Event.new c V)).foldl note a := by
  obtain ⟨i, hi⟩ := hcome
  exact catches_up prefixFree_id
    (fun p hp h => by have := framed_nonempty hp; simp only [id] at h; rw [h] at this; simp at this)
    (link_steps hd) hx hf (by simpa only [wire_id] using hall)
    (C76_link_every_packet hd hx hfair packets hf i (by rw [hi]; exact List.prefix_rfl)) note a

/-- Both packets are in the queue from the beginning; the application counts the events and the errors. -/
example : ∃ n, ∀ i, n ≤ i →
    ((firstResults (fun i => (EventLink.read ⟨false, false⟩ demoVendor fifo
      (after (EventLink.read ⟨false, false⟩ demoVendor fifo) ([0x10, 0x01, 0x2A, 0x1A, 0x01, 0x2A], 0) i)).1) i).filterMap linkOutcome).foldl
      (fun (a : Nat × Nat) o => match o with
        | .ok _ => (a.1 + 1, a.2)
        | _ => (a.1, a.2 + 1)) (0, 0) = (1, 1) := by
  obtain ⟨n, h⟩ := C118_event_link (σ := Fifo) (stream := Prod.fst) (taken := Prod.snd) (k := fifo) (c := ⟨false, false⟩)
    (V := demoVendor) fifo_delivers
    (forever_after (m := EventLink.read ⟨false, false⟩ demoVendor fifo) ([0x10, 0x01, 0x2A, 0x1A, 0x01, 0x2A], 0))
    (fun i => ⟨i, Nat.le_refl i, prompt_serves fifo_prompt _ _⟩) [[0x10, 0x01, 0x2A], [0x1A, 0x01, 0x2A]]
    (by intro p hp; simp only [List.mem_cons, List.not_mem_nil, or_false] at hp
        rcases hp with rfl | rfl
        · exact ⟨0x10, [0x2A], by decide, rfl⟩
        · exact ⟨0x1A, [0x2A], by decide, rfl⟩)
    (fun i => by rw [after_quiet (link_quiet fifo_quiet)]; exact List.prefix_rfl) ⟨0, rfl⟩
    (fun (a : Nat × Nat) o => match o with
      | .ok _ => (a.1 + 1, a.2)
      | _ => (a.1, a.2 + 1)) (0, 0)
  exact ⟨n, fun i hi => (h i hi).trans (by decide +kernel)⟩

/-- **C118**, if packets never stop arriving: the application passes through every state it would pass through had it been
given the packets one after the other; none is skipped. -/
theorem C118_uart_every_state (hd : Delivers k stream taken)
    {results : Nat → Res (Nb (UartError E V.VErr)) (UartPacket V)}
    (hx : Forever stream taken (Uart.read c V k) before results) (hfair : Fair k stream taken 3 before)
    (packet : Nat → List UInt8) (hf : ∀ n, Framed (packet n))
    (ha : ∀ n, ∃ i, uartBytes ((List.range n).map packet) <+: (stream (before i)).drop (taken (before 0)))
    (note : A → Res V.EvErr V.Ev → A) (a : A) (n : Nat) :
    ∃ i, ((firstResults results i).filterMap uartOutcome).foldl note a =
      ((List.range n).map fun j => Event.new c V (packet j)).foldl note a := by
  obtain ⟨i, hi⟩ := ha n
  obtain ⟨j, hj⟩ := C76_every_packet hd hx hfair ((List.range n).map packet)
    (by intro p hp; obtain ⟨m, -, rfl⟩ := List.mem_map.mp hp; exact hf m) i hi
  rw [List.map_map] at hj
  exact passes_through hj note a

/-- A queue into which the same packet is put again before every read; the application counts the outcomes. -/
example (n : Nat) : ∃ i, ((firstResults (fun i => (Uart.read ⟨false, false⟩ demoVendor fifo
      (uartBytes (List.replicate (i + 1) [0x10, 0x01, 0x2A]), 4 * i)).1) i).filterMap uartOutcome).foldl
    (fun (a : Nat) _ => a + 1) 0 = n := by
  have hlen (i : Nat) : (uartBytes (List.replicate i [0x10, 0x01, 0x2A])).length = 4 * i := by
    simp [uartBytes]
    omega
  have hsucc (i : Nat) : uartBytes (List.replicate (i + 1) [0x10, 0x01, 0x2A]) =
      uartBytes (List.replicate i [0x10, 0x01, 0x2A]) ++ [0x04, 0x10, 0x01, 0x2A] := by
    simp [uartBytes, List.replicate_succ']
  have hall := C118_uart_every_state (σ := Fifo) (stream := Prod.fst) (taken := Prod.snd) (k := fifo) (c := ⟨false, false⟩)
    (V := demoVendor) (results := fun i => (Uart.read ⟨false, false⟩ demoVendor fifo
      (uartBytes (List.replicate (i + 1) [0x10, 0x01, 0x2A]), 4 * i)).1)
    (before := fun i => (uartBytes (List.replicate (i + 1) [0x10, 0x01, 0x2A]), 4 * i)) fifo_delivers ?_
    (fun i => ⟨i, Nat.le_refl i, prompt_serves fifo_prompt _ _⟩) (fun _ => [0x10, 0x01, 0x2A])
    (fun _ => ⟨0x10, [0x2A], by decide, rfl⟩) (fun n => ⟨n, ?_⟩) (fun (a : Nat) _ => a + 1) 0 n
  · obtain ⟨i, hi⟩ := hall
    refine ⟨i, hi.trans ?_⟩
    induction n with
    | zero => rfl
    | succ n ih => simp [List.range_succ, List.foldl_append, List.foldl_map] at ih ⊢
  · intro i
    obtain ⟨s', h1, h2, h3⟩ := uart_progress (c := ⟨false, false⟩) (V := demoVendor) fifo_delivers fifo_prompt
      (s := (uartBytes (List.replicate (i + 1) [0x10, 0x01, 0x2A]), 4 * i)) (code := 0x10) (ps := [0x2A])
      (tail := []) (by decide) (by
        unfold pending
        simp only [hsucc]
        rw [← hlen i, List.drop_left]
        rfl)
    have h4 : s'.1 = uartBytes (List.replicate (i + 1) [0x10, 0x01, 0x2A]) := by
      have := uart_quiet (c := ⟨false, false⟩) (V := demoVendor) fifo_quiet
        (uartBytes (List.replicate (i + 1) [0x10, 0x01, 0x2A]), 4 * i)
      rwa [h1] at this
    refine ⟨rfl, ?_, ?_⟩
    · rw [h1]
      simp only [h4]
      rw [hsucc (i + 1)]
      exact List.prefix_append _ _
    · rw [h1]
      simp only at h3 ⊢
      rw [h3]
      simp
      omega
  · show uartBytes ((List.range n).map fun _ => [0x10, 0x01, 0x2A]) <+:
      (uartBytes (List.replicate (n + 1) [0x10, 0x01, 0x2A])).drop (4 * 0)
    rw [hsucc n]
    have : (List.range n).map (fun _ => ([0x10, 0x01, 0x2A] : List UInt8)) =
        List.replicate n [0x10, 0x01, 0x2A] := by simp [List.map_const']
    rw [this]
    exact List.prefix_append _ _

/-- **C118**, the same for an event link. -/
theorem C118_event_link_every_state (hd : Delivers k stream taken)
    {results : Nat → Res (Nb (EventLinkError E V.VErr)) V.Ev}
    (hx : Forever stream taken (EventLink.read c V k) before results) (hfair : Fair k stream taken 2 before)
    (packet : Nat → List UInt8) (hf : ∀ n, Framed (packet n))
    (ha : ∀ n, ∃ i, ((List.range n).map packet).flatten <+: (stream (before i)).drop (taken (before 0)))
    (note : A → Res V.EvErr V.Ev → A) (a : A) (n : Nat) :
    ∃ i, ((firstResults results i).filterMap linkOutcome).foldl note a =
      ((List.range n).map fun j => Event.new c V (packet j)).foldl note a := by
  obtain ⟨i, hi⟩ := ha n
  obtain ⟨j, hj⟩ := C76_link_every_packet hd hx hfair ((List.range n).map packet)
    (by intro p hp; obtain ⟨m, -, rfl⟩ := List.mem_map.mp hp; exact hf m) i hi
  rw [List.map_map] at hj
  exact passes_through hj note a

/-- A queue into which the same packet is put again before every read; the application counts the outcomes. -/
example (n : Nat) : ∃ i, ((firstResults (fun i => (EventLink.read ⟨false, false⟩ demoVendor fifo
      (List.flatten (List.replicate (i + 1) ([0x10, 0x01, 0x2A] : List UInt8)), 3 * i)).1) i).filterMap linkOutcome).foldl
    (fun (a : Nat) _ => a + 1) 0 = n := by
  have hlen (i : Nat) : (List.flatten (List.replicate i ([0x10, 0x01, 0x2A] : List UInt8))).length = 3 * i := by
    simp
    omega
  have hsucc (i : Nat) : List.flatten (List.replicate (i + 1) ([0x10, 0x01, 0x2A] : List UInt8)) =
      List.flatten (List.replicate i ([0x10, 0x01, 0x2A] : List UInt8)) ++ [0x10, 0x01, 0x2A] := by
    simp [List.replicate_succ']
  have hall := C118_event_link_every_state (σ := Fifo) (stream := Prod.fst) (taken := Prod.snd) (k := fifo) (c := ⟨false, false⟩)
    (V := demoVendor) (results := fun i => (EventLink.read ⟨false, false⟩ demoVendor fifo
      (List.flatten (List.replicate (i + 1) ([0x10, 0x01, 0x2A] : List UInt8)), 3 * i)).1)
    (before := fun i => (List.flatten (List.replicate (i + 1) ([0x10, 0x01, 0x2A] : List UInt8)), 3 * i)) fifo_delivers ?_
    (fun i => ⟨i, Nat.le_refl i, prompt_serves fifo_prompt _ _⟩) (fun _ => [0x10, 0x01, 0x2A])
    (fun _ => ⟨0x10, [0x2A], by decide, rfl⟩) (fun n => ⟨n, ?_⟩) (fun (a : Nat) _ => a + 1) 0 n
  · obtain ⟨i, hi⟩ := hall
    refine ⟨i, hi.trans ?_⟩
    induction n with
    | zero => rfl
    | succ n ih => simp [List.range_succ, List.foldl_append, List.foldl_map] at ih ⊢
  · intro i
    obtain ⟨s', h1, h2, h3⟩ := link_progress (c := ⟨false, false⟩) (V := demoVendor) fifo_delivers fifo_prompt
      (s := (List.flatten (List.replicate (i + 1) ([0x10, 0x01, 0x2A] : List UInt8)), 3 * i)) (code := 0x10) (ps := [0x2A])
      (tail := []) (by decide) (by
        unfold pending
        simp only [hsucc]
        rw [← hlen i, List.drop_left]
        rfl)
    have h4 : s'.1 = List.flatten (List.replicate (i + 1) ([0x10, 0x01, 0x2A] : List UInt8)) := by
      have := link_quiet (c := ⟨false, false⟩) (V := demoVendor) fifo_quiet
        (List.flatten (List.replicate (i + 1) ([0x10, 0x01, 0x2A] : List UInt8)), 3 * i)
      rwa [h1] at this
    refine ⟨rfl, ?_, ?_⟩
    · rw [h1]
      simp only [h4]
      rw [hsucc (i + 1)]
      exact List.prefix_append _ _
    · rw [h1]
      simp only at h3 ⊢
      rw [h3]
      simp
      omega
  · show List.flatten ((List.range n).map fun _ => [0x10, 0x01, 0x2A]) <+:
      (List.flatten (List.replicate (n + 1) [0x10, 0x01, 0x2A])).drop (3 * 0)
    rw [hsucc n]
    have : (List.range n).map (fun _ => ([0x10, 0x01, 0x2A] : List UInt8)) =
        List.replicate n [0x10, 0x01, 0x2A] := by simp [List.map_const']
    rw [this]
    exact List.prefix_append _ _

/-- **C118**, why fairness is needed: a controller that loses nothing and serves two calls in a row every time never lets the
application, which counts the outcomes, get further than zero. -/
theorem C118_two_not_enough : ∃ before : Nat → Fifo × Nat, Delivers unlucky (·.1.1) (·.1.2) ∧
    ∃ results, Forever (·.1.1) (·.1.2) (Uart.read ⟨false, false⟩ demoVendor unlucky) before results ∧
    Fair unlucky (·.1.1) (·.1.2) 2 before ∧
    (∀ i, (before i).1.1.drop (before 0).1.2 = uartBytes [[0x10, 0x01, 0x2A]]) ∧
    ∀ i, ((firstResults results i).filterMap uartOutcome).foldl (fun (a : Nat) _ => a + 1) 0 = 0 := by
  refine ⟨fun i => (([0x04, 0x10, 0x01, 0x2A], 0), 3 * i), unlucky_delivers, fun _ => .err (.other (.comm ())),
    fun i => by rw [unlucky_read]; exact ⟨rfl, List.prefix_rfl, rfl⟩,
    fun i => ⟨i, Nat.le_refl i, unlucky_serves _ 2 (by simp)⟩, fun _ => rfl, fun i => ?_⟩
  have : ∀ n, (firstResults (fun _ => (.err (.other (.comm ())) :
      Res (Nb (UartError Unit demoVendor.VErr)) (UartPacket demoVendor))) n).filterMap uartOutcome = [] := by
    intro n
    simp [firstResults, uartOutcome, List.filterMap_map, Function.comp_def]
  rw [this]
  rfl

end Bt
