import Verif.Lemmas.Forever
import Verif.Props.Sessions

/-! # C76: in an execution that never ends, every packet is reported -/

namespace Bt

open Spec

variable {σ E : Type} {c : Cfg} {V : Vendor} {k : Controller σ E}
  {stream : σ → List UInt8} {taken : σ → Nat} {before : Nat → σ}

/-- **C76.** If `read` is called for ever on a UART controller that may fail infinitely often, but again and
again serves three calls in a row, then every sequence of packets that arrives at some time is reported after
finitely many calls, from the first packet on, in order, without gaps and repetitions. -/
theorem C76_every_packet (hd : Delivers k stream taken)
    {results : Nat → Res (Nb (UartError E V.VErr)) (UartPacket V)}
    (hx : Forever stream taken (Uart.read c V k) before results)
    (hfair : Fair k stream taken 3 before) (packets : List (List UInt8)) (hf : ∀ p ∈ packets, Framed p)
    (i : Nat) (ha : uartBytes packets <+: (stream (before i)).drop (taken (before 0))) :
    ∃ n, packets.map (Event.new c V) <+: (firstResults results n).filterMap uartOutcome :=
  live prefixFree_uart (uart_steps hd) (fun h1 h2 h3 => uart_serves hd h1 h2 h3) hx hfair hf ha

/-- A controller every fourth call of which fails reports both packets though it never stops failing. -/
example : ∃ n, [Event.new ⟨false, false⟩ demoVendor [0x10, 0x01, 0x2A],
      Event.new ⟨false, false⟩ demoVendor [0x1A, 0x01, 0x01]] <+:
    (firstResults (fun i => (Uart.read ⟨false, false⟩ demoVendor wobbly
      (after (Uart.read ⟨false, false⟩ demoVendor wobbly)
        ((uartBytes [[0x10, 0x01, 0x2A], [0x1A, 0x01, 0x01]], 0), 2) i)).1) n).filterMap uartOutcome :=
  C76_every_packet wobbly_delivers (forever_after _) (wobbly_fair _) [[0x10, 0x01, 0x2A], [0x1A, 0x01, 0x01]]
    (by intro p hp; simp only [List.mem_cons, List.not_mem_nil, or_false] at hp
        rcases hp with rfl | rfl
        · exact ⟨0x10, [0x2A], by decide, rfl⟩
        · exact ⟨0x1A, [0x01], by decide, rfl⟩) 0 List.prefix_rfl

/-- **C76**, for packets that never stop arriving: the `n`-th outcome reported is that of the `n`-th packet,
and there is one for every `n`. -/
theorem C76_every_event (hd : Delivers k stream taken)
    {results : Nat → Res (Nb (UartError E V.VErr)) (UartPacket V)}
    (hx : Forever stream taken (Uart.read c V k) before results)
    (hfair : Fair k stream taken 3 before) (packet : Nat → List UInt8) (hf : ∀ n, Framed (packet n))
    (ha : ∀ n, ∃ i, uartBytes ((List.range n).map packet) <+: (stream (before i)).drop (taken (before 0)))
    (n : Nat) :
    ∃ i, ((firstResults results i).filterMap uartOutcome)[n]? = some (Event.new c V (packet n)) := by
  obtain ⟨i, hi⟩ := ha (n + 1)
  obtain ⟨j, hj⟩ := C76_every_packet hd hx hfair ((List.range (n + 1)).map packet)
    (by intro p hp; obtain ⟨m, -, rfl⟩ := List.mem_map.mp hp; exact hf m) i hi
  refine ⟨j, ?_⟩
  obtain ⟨t, ht⟩ := hj
  rw [← ht, List.getElem?_append_left (by simp)]
  simp

/-- A queue into which the same packet is put again before every read. -/
example (n : Nat) : ∃ i, ((firstResults (fun i => (Uart.read ⟨false, false⟩ demoVendor fifo
      (uartBytes (List.replicate (i + 1) [0x10, 0x01, 0x2A]), 4 * i)).1) i).filterMap uartOutcome)[n]? =
    some (Event.new ⟨false, false⟩ demoVendor [0x10, 0x01, 0x2A]) := by
  have hlen (i : Nat) : (uartBytes (List.replicate i [0x10, 0x01, 0x2A])).length = 4 * i := by
    simp [uartBytes]
    omega
  have hsucc (i : Nat) : uartBytes (List.replicate (i + 1) [0x10, 0x01, 0x2A]) =
      uartBytes (List.replicate i [0x10, 0x01, 0x2A]) ++ [0x04, 0x10, 0x01, 0x2A] := by
    simp [uartBytes, List.replicate_succ']
  refine C76_every_event (σ := Fifo) (stream := Prod.fst) (taken := Prod.snd)
    (before := fun i => (uartBytes (List.replicate (i + 1) [0x10, 0x01, 0x2A]), 4 * i)) fifo_delivers ?_
    (fun i => ⟨i, Nat.le_refl i, prompt_serves fifo_prompt 3 _⟩) (fun _ => [0x10, 0x01, 0x2A])
    (fun _ => ⟨0x10, [0x2A], by decide, rfl⟩) (fun n => ⟨n, ?_⟩) n
  · intro i
    obtain ⟨s', h1, h2, h3⟩ := uart_progress (c := ⟨false, false⟩) (V := demoVendor) fifo_delivers fifo_prompt
      (s := (uartBytes (List.replicate (i + 1) [0x10, 0x01, 0x2A]), 4 * i)) (code := 0x10) (ps := [0x2A])
      (tail := []) (by decide) (by
        unfold pending
        simp only [hsucc]
        rw [← hlen i, List.drop_left]
        rfl)
    refine ⟨rfl, ?_, ?_⟩
    · have h4 : s'.1 = uartBytes (List.replicate (i + 1) [0x10, 0x01, 0x2A]) := by
        have := uart_quiet (c := ⟨false, false⟩) (V := demoVendor) fifo_quiet
          (uartBytes (List.replicate (i + 1) [0x10, 0x01, 0x2A]), 4 * i)
        rwa [h1] at this
      rw [h1]
      simp only [h4]
      rw [hsucc (i + 1)]
      exact List.prefix_append _ _
    · rw [h1]
      simp only at h3 ⊢
      rw [h3]
      simp
      omega
  · show uartBytes ((List.range n).map fun _ => [0x10, 0x01, 0x2A]) <+:
      (uartBytes (List.replicate (n + 1) [0x10, 0x01, 0x2A])).drop (4 * 0)
    rw [hsucc n]
    have : (List.range n).map (fun _ => ([0x10, 0x01, 0x2A] : List UInt8)) =
        List.replicate n [0x10, 0x01, 0x2A] := by simp [List.map_const']
    rw [this]
    exact List.prefix_append _ _

/-- **C76**, why three calls in a row must succeed again and again: this controller loses nothing and serves
two calls in a row every time `read` is called, a whole packet has arrived, and yet no call ever reports it. -/
theorem C76_two_not_enough : ∃ before : Nat → Fifo × Nat, Delivers unlucky (·.1.1) (·.1.2) ∧
    Forever (·.1.1) (·.1.2) (Uart.read ⟨false, false⟩ demoVendor unlucky) before
      (fun _ => .err (.other (.comm ()))) ∧
    Fair unlucky (·.1.1) (·.1.2) 2 before ∧
    uartBytes [[0x10, 0x01, 0x2A]] <+: (before 0).1.1.drop (before 0).1.2 :=
  ⟨fun i => (([0x04, 0x10, 0x01, 0x2A], 0), 3 * i), unlucky_delivers,
    fun i => by rw [unlucky_read]; exact ⟨rfl, List.prefix_rfl, rfl⟩,
    fun i => ⟨i, Nat.le_refl i, unlucky_serves _ 2 (by simp)⟩, List.prefix_rfl⟩

/-- **C76** for an event link: two calls in a row are enough. -/
theorem C76_link_every_packet (hd : Delivers k stream taken)
    {results : Nat → Res (Nb (EventLinkError E V.VErr)) V.Ev}
    (hx : Forever stream taken (EventLink.read c V k) before results)
    (hfair : Fair k stream taken 2 before) (packets : List (List UInt8)) (hf : ∀ p ∈ packets, Framed p)
    (i : Nat) (ha : packets.flatten <+: (stream (before i)).drop (taken (before 0))) :
    ∃ n, packets.map (Event.new c V) <+: (firstResults results n).filterMap linkOutcome :=
  live prefixFree_id (link_steps hd) (fun h1 h2 h3 => link_serves hd h1 h2 h3) hx hfair hf
    (by rw [wire_id]; exact ha)

/-- Both packets are in the queue from the beginning. -/
example : ∃ n, [Event.new ⟨false, false⟩ demoVendor [0x10, 0x01, 0x2A],
      Event.new ⟨false, false⟩ demoVendor [0x1A, 0x01, 0x01]] <+:
    (firstResults (fun i => (EventLink.read ⟨false, false⟩ demoVendor fifo
      (after (EventLink.read ⟨false, false⟩ demoVendor fifo)
        ([0x10, 0x01, 0x2A, 0x1A, 0x01, 0x01], 0) i)).1) n).filterMap linkOutcome :=
  C76_link_every_packet fifo_delivers (forever_after _) (fun i => ⟨i, Nat.le_refl i, prompt_serves fifo_prompt 2 _⟩)
    [[0x10, 0x01, 0x2A], [0x1A, 0x01, 0x01]]
    (by intro p hp; simp only [List.mem_cons, List.not_mem_nil, or_false] at hp
        rcases hp with rfl | rfl
        · exact ⟨0x10, [0x2A], by decide, rfl⟩
        · exact ⟨0x1A, [0x01], by decide, rfl⟩) 0 List.prefix_rfl

end Bt
