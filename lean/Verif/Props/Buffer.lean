import Verif.Lemmas.Buffer
import Verif.Props.Sessions
import Verif.Props.EventLink

/-! # C104: how large a receive buffer must be -/

namespace Bt

open Spec

variable {σ E : Type} {c : Cfg} {V : Vendor} {k : Controller σ E}
  {stream : σ → List UInt8} {taken : σ → Nat} {before : Nat → σ} {cap : Nat}

/-- **C104.** A UART controller stops the other side while `cap` bytes are waiting, and again and again serves
three calls in a row. If each packet fits into the buffer with the byte before it, every packet sent is
reported, in order, without gaps and repetitions. -/
theorem C104_enough (hd : Delivers k stream taken)
    {results : Nat → Res (Nb (UartError E V.VErr)) (UartPacket V)}
    (hx : Forever stream taken (Uart.read c V k) before results)
    (hfair : Fair k stream taken 3 before) (packets : List (List UInt8)) (hf : ∀ p ∈ packets, Framed p)
    (hcap : ∀ p ∈ packets, p.length + 1 ≤ cap)
    (hfl : FlowControlled stream taken before cap (uartBytes packets)) :
    ∃ n, packets.map (Event.new c V) <+: (firstResults results n).filterMap uartOutcome := by
  obtain ⟨i, hi⟩ := all_arrive prefixFree_uart (uart_steps hd) (fun h1 h2 h3 => uart_serves hd h1 h2 h3) hx hfair
    hf hcap hfl
  exact live prefixFree_uart (uart_steps hd) (fun h1 h2 h3 => uart_serves hd h1 h2 h3) hx hfair hf hi

/-- Two packets of four bytes come through a buffer of five bytes. -/
example : ∃ n, [Event.new ⟨false, false⟩ demoVendor [0x10, 0x01, 0x2A],
      Event.new ⟨false, false⟩ demoVendor [0x1A, 0x01, 0x01]] <+:
    (firstResults (fun i => (Uart.read ⟨false, false⟩ demoVendor (ring 5)
      (after (Uart.read ⟨false, false⟩ demoVendor (ring 5))
        (uartBytes [[0x10, 0x01, 0x2A], [0x1A, 0x01, 0x01]], 0) i)).1) n).filterMap uartOutcome :=
  C104_enough (ring_delivers 5) (forever_after _) (fun i => ⟨i, Nat.le_refl i, prompt_serves (ring_prompt 5) 3 _⟩)
    [[0x10, 0x01, 0x2A], [0x1A, 0x01, 0x01]]
    (by intro p hp; simp only [List.mem_cons, List.not_mem_nil, or_false] at hp
        rcases hp with rfl | rfl
        · exact ⟨0x10, [0x2A], by decide, rfl⟩
        · exact ⟨0x1A, [0x01], by decide, rfl⟩)
    (by decide) (ring_flow ring_uart_sent 5 _)

/-- **C104**, for any packets: 258 bytes are enough. -/
theorem C104_258 (hd : Delivers k stream taken)
    {results : Nat → Res (Nb (UartError E V.VErr)) (UartPacket V)}
    (hx : Forever stream taken (Uart.read c V k) before results)
    (hfair : Fair k stream taken 3 before) (packets : List (List UInt8)) (hf : ∀ p ∈ packets, Framed p)
    (hcap : 258 ≤ cap) (hfl : FlowControlled stream taken before cap (uartBytes packets)) :
    ∃ n, packets.map (Event.new c V) <+: (firstResults results n).filterMap uartOutcome :=
  C104_enough hd hx hfair packets hf (fun p hp => by have := framed_length (hf p hp); omega) hfl

/-- The longest packet comes through a buffer of 258 bytes. -/
example : FlowControlled (ringStream 258) Prod.snd (after (Uart.read ⟨false, false⟩ demoVendor (ring 258))
    (uartBytes [frame 0xFF (List.replicate 255 0)], 0)) 258 (uartBytes [frame 0xFF (List.replicate 255 0)]) :=
  ring_flow ring_uart_sent 258 _

/-- **C104**, for smaller buffers: whatever is called and happens how often, a packet that does not fit with the
byte before it is never reported, nor is anything after it. -/
theorem C104_stuck (hd : Delivers k stream taken) (hh : HoldsAtMost k cap) (s s' : σ)
    (rs : List (Res (Nb (UartError E V.VErr)) (UartPacket V)))
    (h : History stream taken (Uart.read c V k) s rs s') (packets : List (List UInt8)) (p rest : List UInt8)
    (hf : ∀ q ∈ packets, Framed q) (hp : Framed p) (hbig : cap < p.length + 1)
    (hl : (stream s').drop (taken s) <+: uartBytes packets ++ 0x04 :: p ++ rest) :
    rs.filterMap uartOutcome <+: packets.map (Event.new c V) :=
  stuck_at prefixFree_uart (uart_steps hd) (uart_takes hd hh) h hf hp hbig
    (by rw [List.append_assoc] at hl ⊢; exact hl)

/-- A buffer of four bytes lets a packet of four bytes through, and is then stuck at one of five, however often
`read` is called. -/
example (n : Nat) : ((callTimes (Uart.read ⟨false, false⟩ demoVendor (ring 4)) n
      ([0x04, 0x10, 0x01, 0x2A, 0x04, 0x0E, 0x02, 0x01, 0x02], 0)).1).filterMap uartOutcome <+:
    [Event.new ⟨false, false⟩ demoVendor [0x10, 0x01, 0x2A]] := by
  rw [callTimes_first]
  refine C104_stuck (ring_delivers 4) (ring_holds 4) _ _ _ (forever_history (forever_after _) n)
    [[0x10, 0x01, 0x2A]] [0x0E, 0x02, 0x01, 0x02] [] ?_ ⟨0x0E, [0x01, 0x02], by decide, rfl⟩ (by decide) ?_
  · intro q hq
    rw [List.mem_singleton.mp hq]
    exact ⟨0x10, [0x2A], by decide, rfl⟩
  · show received (ringStream 4) Prod.snd (after (Uart.read ⟨false, false⟩ demoVendor (ring 4)) (_, 0)) n <+: _
    rw [(ring_received ring_uart_sent 4 _ n).1]
    exact List.take_prefix _ _

/-- **C104**, exactly: a UART controller with a buffer of `cap` bytes brings every sequence of packets to the
application if and only if it has 258 bytes or more. -/
theorem C104_exact (c : Cfg) (V : Vendor) (cap : Nat) :
    (∀ packets : List (List UInt8), (∀ p ∈ packets, Framed p) → ∃ n, packets.map (Event.new c V) <+:
      ((callTimes (Uart.read c V (ring cap)) n (uartBytes packets, 0)).1).filterMap uartOutcome) ↔ 258 ≤ cap := by
  constructor
  · intro h
    rcases Nat.lt_or_ge cap 258 with hlt | hge
    · exfalso
      obtain ⟨n, hn⟩ := h [frame 0xFF (List.replicate 255 0)] (by
        intro p hp; rw [List.mem_singleton.mp hp]; exact longest_framed)
      have hh := forever_history (forever_after (stream := ringStream cap) (taken := Prod.snd)
        (m := Uart.read c V (ring cap)) (uartBytes [frame 0xFF (List.replicate 255 0)], 0)) n
      rw [← callTimes_first] at hh
      have := C104_stuck (ring_delivers cap) (ring_holds cap) _ _ _ hh [] (frame 0xFF (List.replicate 255 0)) []
        (by simp) longest_framed (by simp only [frame, List.length_cons, List.length_replicate]; omega)
        (by
          have := (ring_received (m := Uart.read c V (ring cap)) ring_uart_sent cap
            (uartBytes [frame 0xFF (List.replicate 255 0)]) n).1
          simp only [received] at this
          rw [this]
          refine (List.take_prefix _ _).trans ?_
          rw [List.append_nil]
          simp only [uartBytes, List.map_cons, List.map_nil, List.flatten_cons, List.flatten_nil, List.append_nil,
            List.nil_append]
          exact List.prefix_rfl)
      have h1 := (hn.trans this).length_le
      rw [List.length_map, List.length_map] at h1
      exact absurd h1 (Nat.not_succ_le_zero 0)
    · exact hge
  · intro hcap packets hf
    obtain ⟨n, hn⟩ := C104_258 (cap := cap) (ring_delivers cap) (forever_after (uartBytes packets, 0))
      (fun i => ⟨i, Nat.le_refl i, prompt_serves (ring_prompt cap) 3 _⟩) packets hf hcap
      (ring_flow ring_uart_sent cap _)
    exact ⟨n, by rw [callTimes_first]; exact hn⟩

/-- **C104** for an event link: the packet alone must fit. -/
theorem C104_link_enough (hd : Delivers k stream taken)
    {results : Nat → Res (Nb (EventLinkError E V.VErr)) V.Ev}
    (hx : Forever stream taken (EventLink.read c V k) before results)
    (hfair : Fair k stream taken 2 before) (packets : List (List UInt8)) (hf : ∀ p ∈ packets, Framed p)
    (hcap : ∀ p ∈ packets, p.length ≤ cap) (hfl : FlowControlled stream taken before cap packets.flatten) :
    ∃ n, packets.map (Event.new c V) <+: (firstResults results n).filterMap linkOutcome := by
  rw [← wire_id] at hfl
  obtain ⟨i, hi⟩ := all_arrive prefixFree_id (link_steps hd) (fun h1 h2 h3 => link_serves hd h1 h2 h3) hx hfair
    hf hcap hfl
  exact live prefixFree_id (link_steps hd) (fun h1 h2 h3 => link_serves hd h1 h2 h3) hx hfair hf hi

/-- Two packets of three bytes come through a buffer of three bytes. -/
example : ∃ n, [Event.new ⟨false, false⟩ demoVendor [0x10, 0x01, 0x2A],
      Event.new ⟨false, false⟩ demoVendor [0x1A, 0x01, 0x01]] <+:
    (firstResults (fun i => (EventLink.read ⟨false, false⟩ demoVendor (ring 3)
      (after (EventLink.read ⟨false, false⟩ demoVendor (ring 3))
        ([0x10, 0x01, 0x2A, 0x1A, 0x01, 0x01], 0) i)).1) n).filterMap linkOutcome :=
  C104_link_enough (ring_delivers 3) (forever_after _)
    (fun i => ⟨i, Nat.le_refl i, prompt_serves (ring_prompt 3) 2 _⟩)
    [[0x10, 0x01, 0x2A], [0x1A, 0x01, 0x01]]
    (by intro p hp; simp only [List.mem_cons, List.not_mem_nil, or_false] at hp
        rcases hp with rfl | rfl
        · exact ⟨0x10, [0x2A], by decide, rfl⟩
        · exact ⟨0x1A, [0x01], by decide, rfl⟩)
    (by decide) (ring_flow ring_link_sent 3 _)

/-- **C104** for an event link with a smaller buffer. -/
theorem C104_link_stuck (hd : Delivers k stream taken) (hh : HoldsAtMost k cap) (s s' : σ)
    (rs : List (Res (Nb (EventLinkError E V.VErr)) V.Ev))
    (h : History stream taken (EventLink.read c V k) s rs s') (packets : List (List UInt8)) (p rest : List UInt8)
    (hf : ∀ q ∈ packets, Framed q) (hp : Framed p) (hbig : cap < p.length)
    (hl : (stream s').drop (taken s) <+: packets.flatten ++ p ++ rest) :
    rs.filterMap linkOutcome <+: packets.map (Event.new c V) :=
  stuck_at prefixFree_id (link_steps hd) (link_takes hd hh) h hf hp hbig (by rw [wire_id]; exact hl)

/-- A buffer of three bytes lets a packet of three bytes through, and is then stuck at one of four. -/
example (n : Nat) : ((callTimes (EventLink.read ⟨false, false⟩ demoVendor (ring 3)) n
      ([0x10, 0x01, 0x2A, 0x0E, 0x02, 0x01, 0x02], 0)).1).filterMap linkOutcome <+:
    [Event.new ⟨false, false⟩ demoVendor [0x10, 0x01, 0x2A]] := by
  rw [callTimes_first]
  refine C104_link_stuck (ring_delivers 3) (ring_holds 3) _ _ _ (forever_history (forever_after _) n)
    [[0x10, 0x01, 0x2A]] [0x0E, 0x02, 0x01, 0x02] [] ?_ ⟨0x0E, [0x01, 0x02], by decide, rfl⟩ (by decide) ?_
  · intro q hq
    rw [List.mem_singleton.mp hq]
    exact ⟨0x10, [0x2A], by decide, rfl⟩
  · show received (ringStream 3) Prod.snd (after (EventLink.read ⟨false, false⟩ demoVendor (ring 3)) (_, 0)) n <+: _
    rw [(ring_received ring_link_sent 3 _ n).1]
    exact List.take_prefix _ _

/-- **C104** for an event link, exactly: 257 bytes. -/
theorem C104_link_exact (c : Cfg) (V : Vendor) (cap : Nat) :
    (∀ packets : List (List UInt8), (∀ p ∈ packets, Framed p) → ∃ n, packets.map (Event.new c V) <+:
      ((callTimes (EventLink.read c V (ring cap)) n (packets.flatten, 0)).1).filterMap linkOutcome) ↔
    257 ≤ cap := by
  constructor
  · intro h
    rcases Nat.lt_or_ge cap 257 with hlt | hge
    · exfalso
      obtain ⟨n, hn⟩ := h [frame 0xFF (List.replicate 255 0)] (by
        intro p hp; rw [List.mem_singleton.mp hp]; exact longest_framed)
      have hh := forever_history (forever_after (stream := ringStream cap) (taken := Prod.snd)
        (m := EventLink.read c V (ring cap)) ([frame 0xFF (List.replicate 255 0)].flatten, 0)) n
      rw [← callTimes_first] at hh
      have := C104_link_stuck (ring_delivers cap) (ring_holds cap) _ _ _ hh []
        (frame 0xFF (List.replicate 255 0)) []
        (by simp) longest_framed (by simp only [frame, List.length_cons, List.length_replicate]; omega)
        (by
          have := (ring_received (m := EventLink.read c V (ring cap)) ring_link_sent cap
            [frame 0xFF (List.replicate 255 0)].flatten n).1
          simp only [received] at this
          rw [this]
          refine (List.take_prefix _ _).trans ?_
          simp only [List.append_nil, List.flatten_cons, List.flatten_nil, List.nil_append]
          exact List.prefix_rfl)
      have h1 := (hn.trans this).length_le
      rw [List.length_map, List.length_map] at h1
      exact absurd h1 (Nat.not_succ_le_zero 0)
    · exact hge
  · intro hcap packets hf
    obtain ⟨n, hn⟩ := C104_link_enough (cap := cap) (ring_delivers cap) (forever_after (packets.flatten, 0))
      (fun i => ⟨i, Nat.le_refl i, prompt_serves (ring_prompt cap) 2 _⟩) packets hf
      (fun p hp => by have := framed_length (hf p hp); omega)
      (ring_flow ring_link_sent cap _)
    exact ⟨n, by rw [callTimes_first]; exact hn⟩

end Bt
