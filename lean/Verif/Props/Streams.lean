import Verif.Lemmas.Histories
import Verif.Spec.Controllers
import Verif.Spec.Demo

/-! # C01–C05: reading events from a UART -/

namespace Bt

open Spec

variable {σ E : Type} {c : Cfg} {V : Vendor} {k : Controller σ E}
  {stream : σ → List UInt8} {taken : σ → Nat}

theorem uart_steps (hd : Delivers k stream taken) :
    Steps stream taken (Uart.read c V k) (0x04 :: ·) uartOutcome (Event.new c V) := by
  intro s r s' h
  obtain ⟨hs, h⟩ := uart_step hd h
  refine ⟨hs, ?_⟩
  rcases h with ⟨ht, rfl | ⟨e, rfl⟩⟩ | ⟨ht, b, -, -, rfl⟩ | ⟨code, ps, hl, ht, hb, rfl⟩
  · exact .inl ⟨ht, rfl⟩
  · exact .inl ⟨ht, rfl⟩
  · exact .inl ⟨ht, rfl⟩
  · refine .inr ⟨frame code ps, ⟨code, ps, hl, rfl⟩, ?_, hb, ?_⟩
    · rw [ht]; simp [frame]; omega
    · cases Event.new c V (frame code ps) <;> rfl

/-- **C01.** When a complete event packet is pending, `read` takes exactly its `3 + n` bytes, whatever
follows them, and returns the outcome of decoding exactly this packet. -/
theorem C01_one_packet (hd : Delivers k stream taken) (hp : Prompt k stream taken) (s : σ) (code : UInt8)
    (ps tail : List UInt8) (hl : ps.length ≤ 255)
    (hs : pending stream taken s = 0x04 :: code :: UInt8.ofNat ps.length :: ps ++ tail) :
    ∃ s' arrived, Uart.read c V k s =
        (uartResult (Event.new c V (code :: UInt8.ofNat ps.length :: ps)), s') ∧
      taken s' = taken s + 3 + ps.length ∧ pending stream taken s' = tail ++ arrived := by
  obtain ⟨s', h, hst, ht⟩ := uart_progress (c := c) (V := V) hd hp hl hs
  obtain ⟨t, ht'⟩ := prefix_drop hst (taken s)
  refine ⟨s', t, h, by omega, ?_⟩
  unfold pending
  rw [ht, ← List.drop_drop, ← ht']
  have : (stream s).drop (taken s) = 0x04 :: code :: UInt8.ofNat ps.length :: ps ++ tail := hs
  rw [this, List.append_assoc, List.drop_append_of_le_length (by simp; omega),
    List.drop_of_length_le (by simp; omega), List.nil_append]

/-- A hardware error packet and the beginning of the next packet. -/
example : pending (σ := Fifo) Prod.fst Prod.snd ([9, 9, 0x04, 0x10, 0x01, 0x2A, 0x04, 0x3E], 2) =
    0x04 :: 0x10 :: UInt8.ofNat [(0x2A : UInt8)].length :: [0x2A] ++ [0x04, 0x3E] := rfl

example : ∃ s', Uart.read ⟨false, false⟩ demoVendor fifo ([9, 9, 0x04, 0x10, 0x01, 0x2A, 0x04, 0x3E], 2) =
    (.ok (.event (.hardwareError ⟨0x2A⟩)), s') := by
  obtain ⟨s', -, h, -⟩ := C01_one_packet (c := ⟨false, false⟩) (V := demoVendor) fifo_delivers fifo_prompt
    ([9, 9, 0x04, 0x10, 0x01, 0x2A, 0x04, 0x3E], 2) 0x10 [0x2A] [0x04, 0x3E] (by decide) rfl
  exact ⟨s', h⟩

/-- **C02.** When the pending bytes are a proper prefix of a packet, `read` would block and takes nothing. -/
theorem C02_incomplete (hd : Delivers k stream taken) (hp : Prompt k stream taken)
    (hq : Quiet k stream taken) (s : σ) (code : UInt8) (ps missing : List UInt8) (hl : ps.length ≤ 255)
    (hm : missing ≠ [])
    (hs : pending stream taken s ++ missing = 0x04 :: code :: UInt8.ofNat ps.length :: ps) :
    ∃ s', Uart.read c V k s = (.err .wouldBlock, s') ∧ stream s' = stream s ∧ taken s' = taken s := by
  have hlen : (pending stream taken s).length + missing.length = 3 + ps.length := by
    have := congrArg List.length hs
    simp only [List.length_append, List.length_cons] at this
    omega
  have hm0 : 0 < missing.length := List.length_pos_iff.mpr hm
  have hget (i : Nat) (hi : i < (pending stream taken s).length) (b : UInt8)
      (hb : (0x04 :: code :: UInt8.ofNat ps.length :: ps)[i]? = some b) :
      (pending stream taken s)[i]? = some b := by
    rw [← hs, List.getElem?_append_left hi] at hb
    exact hb
  rw [uartRead_eq]
  by_cases h0 : (pending stream taken s).length ≤ 0
  · obtain ⟨q1, q2⟩ := hq.peek 0 s
    rcases he : k.peek 0 s with ⟨r, s₁⟩
    rw [he] at q1 q2
    obtain ⟨-, -, t1, -⟩ := hd.peek _ _ _ _ he
    simp only at q1 q2
    rw [q2 h0]
    exact ⟨s₁, rfl, q1, t1⟩
  · obtain ⟨s₁, e1, p1, t1⟩ := peek_prompt hd hp (hget 0 (by omega) _ rfl)
    have q1 : stream s₁ = stream s := by have := (hq.peek 0 s).1; rwa [e1] at this
    have hpend : pending stream taken s₁ = pending stream taken s := by unfold pending; rw [q1, t1]
    rw [e1]
    simp only [if_true]
    by_cases h2 : (pending stream taken s).length ≤ 2
    · obtain ⟨q3, q4⟩ := hq.peek 2 s₁
      rcases he : k.peek 2 s₁ with ⟨r, s₂⟩
      rw [he] at q3 q4
      obtain ⟨-, -, t2, -⟩ := hd.peek _ _ _ _ he
      simp only at q3 q4
      rw [q4 (by rw [hpend]; exact h2)]
      exact ⟨s₂, rfl, q3.trans q1, t2.trans t1⟩
    · obtain ⟨s₂, e2, p2, t2⟩ := peek_prompt hd hp (s := s₁) (n := 2) (b := UInt8.ofNat ps.length)
        (by rw [hpend]; exact hget 2 (by omega) _ rfl)
      have q2 : stream s₂ = stream s₁ := by have := (hq.peek 2 s₁).1; rwa [e2] at this
      have hpend2 : pending stream taken s₂ = pending stream taken s := by
        rw [← hpend]; unfold pending; rw [q2, t2]
      rw [e2]
      simp only
      have hn : (UInt8.ofNat ps.length).toNat = ps.length := by
        rw [UInt8.toNat_ofNat']; omega
      obtain ⟨q3, q4⟩ := hq.readInto (3 + (UInt8.ofNat ps.length).toNat) s₂
      rcases he : k.readInto (3 + (UInt8.ofNat ps.length).toNat) s₂ with ⟨r, s₃⟩
      rw [he] at q3 q4
      obtain ⟨-, -, t3, -⟩ := hd.readInto _ _ _ _ he
      simp only at q3 q4
      have hr := q4 (by rw [hpend2, hn]; omega)
      subst hr
      exact ⟨s₃, rfl, q3.trans (q2.trans q1), (t3 _ rfl).trans (t2.trans t1)⟩

/-- The queue holds five of the seven bytes of a packet. -/
example : ∃ s', Uart.read ⟨false, false⟩ demoVendor fifo ([0x04, 0x0F, 0x04, 0x00, 0x01], 0) =
    (.err .wouldBlock, s') :=
  (C02_incomplete fifo_delivers fifo_prompt fifo_quiet ([0x04, 0x0F, 0x04, 0x00, 0x01], 0) 0x0F [0, 1, 3, 12]
    [3, 12] (by decide) (by decide) rfl).imp fun _ h => h.1

/-- **C02** for controllers that may fail spuriously and receive bytes at any time: as long as what has
arrived is a proper prefix of a packet, `read` takes nothing and reports `WouldBlock` or the controller's
error. -/
theorem C02_nothing_taken (hd : Delivers k stream taken) (s s' : σ)
    (r : Res (Nb (UartError E V.VErr)) (UartPacket V)) (h : Uart.read c V k s = (r, s')) (code : UInt8)
    (ps missing : List UInt8) (hl : ps.length ≤ 255) (hm : missing ≠ [])
    (hs : (stream s').drop (taken s) ++ missing = 0x04 :: code :: UInt8.ofNat ps.length :: ps) :
    taken s' = taken s ∧ (r = .err .wouldBlock ∨ ∃ e, r = .err (.other (.comm e))) := by
  obtain ⟨-, h⟩ := uart_step hd h
  rcases h with h | ⟨-, b, hb, hg, -⟩ | ⟨code', ps', hl', -, hb, -⟩
  · exact h
  · exfalso
    have hg' : ((stream s').drop (taken s))[0]? = some b := by rw [List.getElem?_drop]; exact hg
    cases hx : (stream s').drop (taken s) with
    | nil => rw [hx] at hg'; cases hg'
    | cons x xs =>
      rw [hx] at hg' hs
      cases hg'
      exact hb (List.cons.inj hs).1
  · exfalso
    rw [hb, List.append_assoc] at hs
    have hs' : 0x04 :: (frame code' ps') ++ ((stream s').drop (taken s') ++ missing) =
        0x04 :: frame code ps ++ [] := by rw [hs]; simp [frame]
    obtain ⟨-, h2⟩ := prefixFree_uart _ _ _ _ ⟨code', ps', hl', rfl⟩ ⟨code, ps, hl, rfl⟩ hs'
    exact hm (List.append_eq_nil_iff.mp h2).2

/-- The queue holds five of the seven bytes of a packet. -/
example : pending (σ := Fifo) Prod.fst Prod.snd ([0x04, 0x0F, 0x04, 0x00, 0x01], 0) ++ [0x03, 0x0C] =
    0x04 :: 0x0F :: UInt8.ofNat [(0 : UInt8), 1, 3, 12].length :: [0, 1, 3, 12] := rfl

/-- **C03.** After any history, the bytes taken are exactly a sequence of packets, and the results that
report something are exactly their decodings, in order, each one once. The only other results are
`WouldBlock`, communication errors and, if the next byte is not the event indicator, that byte. -/
theorem C03_history (hd : Delivers k stream taken) {s s' : σ}
    {rs : List (Res (Nb (UartError E V.VErr)) (UartPacket V))}
    (h : History stream taken (Uart.read c V k) s rs s') :
    (∃ packets : List (List UInt8), (∀ p ∈ packets, Framed p) ∧
      rs.filterMap uartOutcome = packets.map (Event.new c V) ∧
      taken s' = taken s + (uartBytes packets).length ∧
      (stream s').drop (taken s) = uartBytes packets ++ pending stream taken s') ∧
    ∀ b, .err (.other (.badPacketType b)) ∈ rs → b ≠ 0x04 ∧ (pending stream taken s')[0]? = some b := by
  constructor
  · exact (history (uart_steps hd) h).2
  · have key : ∀ {s s' : σ} {rs : List (Res (Nb (UartError E V.VErr)) (UartPacket V))} (b : UInt8),
        b ≠ 0x04 → (pending stream taken s)[0]? = some b →
        History stream taken (Uart.read c V k) s rs s' → (pending stream taken s')[0]? = some b := by
      intro s s' rs b hb hg h
      induction h with
      | nil => exact hg
      | wait h1 h2 _ ih => exact ih (prefix_get (pending_mono h1 h2) hg)
      | @call s r s₁ rs s' hr _ ih =>
        obtain ⟨h1, h2⟩ := uart_step hd hr
        apply ih
        rcases h2 with ⟨h2, -⟩ | ⟨h2, -⟩ | ⟨code, ps, -, -, h3, -⟩
        · exact prefix_get (pending_mono h1 h2) hg
        · exact prefix_get (pending_mono h1 h2) hg
        · exfalso
          have := prefix_get (prefix_drop h1 (taken s)) hg
          rw [h3] at this
          exact hb (Option.some.inj this).symm
    induction h with
    | nil => simp
    | wait _ _ _ ih => exact ih
    | @call s r s₁ rs s' hr hrest ih =>
      intro b hm
      rcases List.mem_cons.mp hm with he | hm
      · subst he
        obtain ⟨h1, h2⟩ := uart_step hd hr
        rcases h2 with ⟨-, h | ⟨e, h⟩⟩ | ⟨h2, b', hb, hg, h⟩ | ⟨code, ps, -, -, -, h⟩
        · cases h
        · cases h
        · cases h
          refine ⟨hb, key b hb ?_ hrest⟩
          unfold pending
          rw [List.getElem?_drop, h2]
          exact hg
        · cases hn : Event.new c V (frame code ps) <;> rw [hn] at h <;> cases h
      · exact ih b hm

/-- A packet that is rejected, bytes that arrive between the calls, a byte that is not the indicator. -/
example : ∃ s', History (σ := Fifo) Prod.fst Prod.snd (Uart.read ⟨false, false⟩ demoVendor fifo) ([0x04, 0x60], 0)
    [.err .wouldBlock, .err (.other (.ble (.unknownEvent 0x60))), .err (.other (.badPacketType 0x02))] s' :=
  ⟨_, .call (s₁ := ([0x04, 0x60], 0)) (by rw [uartRead_eq]; rfl) (.wait (s₁ := ([0x04, 0x60, 0x00, 0x02], 0)) ⟨[0x00, 0x02], rfl⟩ rfl
    (.call (by rw [uartRead_eq]; rfl) (.call (by rw [uartRead_eq]; rfl) (.nil _))))⟩

/-- **C03**, for two controllers and two histories in which the same bytes arrive: what the one reports is
the beginning of what the other reports. -/
theorem C03_schedule_independent {σ₁ σ₂ E₁ E₂ : Type} {k₁ : Controller σ₁ E₁} {k₂ : Controller σ₂ E₂}
    {stream₁ : σ₁ → List UInt8} {stream₂ : σ₂ → List UInt8} {taken₁ : σ₁ → Nat} {taken₂ : σ₂ → Nat}
    (hd₁ : Delivers k₁ stream₁ taken₁) (hd₂ : Delivers k₂ stream₂ taken₂) {s₁ s₁' : σ₁} {s₂ s₂' : σ₂}
    {rs₁ : List (Res (Nb (UartError E₁ V.VErr)) (UartPacket V))}
    {rs₂ : List (Res (Nb (UartError E₂ V.VErr)) (UartPacket V))}
    (h₁ : History stream₁ taken₁ (Uart.read c V k₁) s₁ rs₁ s₁')
    (h₂ : History stream₂ taken₂ (Uart.read c V k₂) s₂ rs₂ s₂')
    (later : List UInt8)
    (hb : (stream₁ s₁').drop (taken₁ s₁) ++ later = (stream₂ s₂').drop (taken₂ s₂)) :
    rs₁.filterMap uartOutcome <+: rs₂.filterMap uartOutcome ∨
      rs₂.filterMap uartOutcome <+: rs₁.filterMap uartOutcome := by
  obtain ⟨-, ps, f1, o1, -, b1⟩ := history (uart_steps hd₁) h₁
  obtain ⟨-, qs, f2, o2, -, b2⟩ := history (uart_steps hd₂) h₂
  rw [o1, o2]
  rw [b1, b2, List.append_assoc] at hb
  rcases wire_comparable prefixFree_uart ps qs _ _ f1 f2 hb with h | h
  · exact .inl (h.map _)
  · exact .inr (h.map _)

/-- The same packet, for one controller in the queue, for the other byte by byte. -/
example : (∃ s', History (σ := Fifo) Prod.fst Prod.snd (Uart.read ⟨false, false⟩ demoVendor fifo)
      ([0x04, 0x10, 0x01, 0x2A], 0) [.ok (.event (.hardwareError ⟨0x2A⟩))] s' ∧
      s'.1.drop 0 = [0x04, 0x10, 0x01, 0x2A]) ∧
    ∃ s', History (·.queue.1) (·.queue.2) (Uart.read ⟨false, false⟩ demoVendor slow)
      ⟨([], 0), [0x04, 0x10, 0x01, 0x2A], 0⟩
      [.err .wouldBlock, .err (.other (.comm ())), .ok (.event (.hardwareError ⟨0x2A⟩))] s' ∧
      s'.queue.1.drop 0 = [0x04, 0x10, 0x01, 0x2A] :=
  ⟨⟨_, .call (by rw [uartRead_eq]; rfl) (.nil _), rfl⟩,
   ⟨_, .call (by rw [uartRead_eq]; rfl) (.call (by rw [uartRead_eq]; rfl)
    (.call (by rw [uartRead_eq]; rfl) (.nil _))), rfl⟩⟩

/-- **C03.** If moreover all packets that arrived have been read, both report the same. -/
theorem C03_same_results {σ₁ σ₂ E₁ E₂ : Type} {k₁ : Controller σ₁ E₁} {k₂ : Controller σ₂ E₂}
    {stream₁ : σ₁ → List UInt8} {stream₂ : σ₂ → List UInt8} {taken₁ : σ₁ → Nat} {taken₂ : σ₂ → Nat}
    (hd₁ : Delivers k₁ stream₁ taken₁) (hd₂ : Delivers k₂ stream₂ taken₂) {s₁ s₁' : σ₁} {s₂ s₂' : σ₂}
    {rs₁ : List (Res (Nb (UartError E₁ V.VErr)) (UartPacket V))}
    {rs₂ : List (Res (Nb (UartError E₂ V.VErr)) (UartPacket V))}
    (h₁ : History stream₁ taken₁ (Uart.read c V k₁) s₁ rs₁ s₁')
    (h₂ : History stream₂ taken₂ (Uart.read c V k₂) s₂ rs₂ s₂')
    (hb : (stream₁ s₁').drop (taken₁ s₁) = (stream₂ s₂').drop (taken₂ s₂))
    (hr₁ : ∀ p tail, Framed p → pending stream₁ taken₁ s₁' ≠ 0x04 :: p ++ tail)
    (hr₂ : ∀ p tail, Framed p → pending stream₂ taken₂ s₂' ≠ 0x04 :: p ++ tail) :
    rs₁.filterMap uartOutcome = rs₂.filterMap uartOutcome := by
  obtain ⟨-, ps, f1, o1, -, b1⟩ := history (uart_steps hd₁) h₁
  obtain ⟨-, qs, f2, o2, -, b2⟩ := history (uart_steps hd₂) h₂
  rw [o1, o2]
  rw [b1, b2] at hb
  rw [wire_unique prefixFree_uart ps qs _ _ f1 f2 (fun p u h => hr₁ p u h) (fun p u h => hr₂ p u h) hb]

/-- A history of the slow controller in which the packet arrives byte by byte. -/
example : ∃ s', History (·.queue.1) (·.queue.2) (Uart.read ⟨false, false⟩ demoVendor slow)
    ⟨([], 0), [0x04, 0x10, 0x01, 0x2A], 0⟩
    [.err .wouldBlock, .err (.other (.comm ())), .ok (.event (.hardwareError ⟨0x2A⟩))] s' :=
  ⟨_, .call (by rw [uartRead_eq]; rfl) (.call (by rw [uartRead_eq]; rfl)
    (.call (by rw [uartRead_eq]; rfl) (.nil _)))⟩

/-- **C04.** A sequence of packets is read one by one: `n` calls report the outcome of decoding each of the
`n` packets, whether or not others are rejected. -/
theorem C04_one_by_one (hd : Delivers k stream taken) (hp : Prompt k stream taken) (s : σ)
    (packets : List (List UInt8)) (tail : List UInt8) (hf : ∀ p ∈ packets, Framed p)
    (hs : pending stream taken s = uartBytes packets ++ tail) :
    (callTimes (Uart.read c V k) packets.length s).1 =
      packets.map (fun p => uartResult (Event.new c V p)) ∧
    taken (callTimes (Uart.read c V k) packets.length s).2 = taken s + (uartBytes packets).length := by
  induction packets generalizing s tail with
  | nil => exact ⟨rfl, rfl⟩
  | cons p ps ih =>
    obtain ⟨code, params, hl, rfl⟩ := hf p (.head _)
    have hs' : pending stream taken s = 0x04 :: code :: UInt8.ofNat params.length :: params ++
        (uartBytes ps ++ tail) := by rw [hs]; simp [uartBytes, frame]
    obtain ⟨s', arrived, h1, h2, h3⟩ := C01_one_packet (c := c) (V := V) hd hp s code params _ hl hs'
    rw [List.append_assoc] at h3
    obtain ⟨i1, i2⟩ := ih s' _ (fun q hq => hf q (.tail _ hq)) h3
    simp only [List.length_cons, callTimes, List.map_cons, h1]
    refine ⟨by rw [i1]; rfl, ?_⟩
    rw [i2, h2]
    simp only [uartBytes, frame, List.map_cons, List.flatten_cons, List.length_append, List.length_cons]
    omega

/-- A rejected packet between two others. -/
example : (callTimes (Uart.read ⟨false, false⟩ demoVendor fifo) 3
      (uartBytes [[0x10, 0x01, 0x2A], [0x10, 0x02, 0x2A, 0x2B], [0x1A, 0x01, 0x01]], 0)).1 =
    [.ok (.event (.hardwareError ⟨0x2A⟩)), .err (.other (.ble (.badLength 2 1))),
      .ok (.event (.dataBufferOverflow ⟨.acl⟩))] := by
  exact (C04_one_by_one (c := ⟨false, false⟩) (V := demoVendor) fifo_delivers fifo_prompt
    (uartBytes [[0x10, 0x01, 0x2A], [0x10, 0x02, 0x2A, 0x2B], [0x1A, 0x01, 0x01]], 0)
    [[0x10, 0x01, 0x2A], [0x10, 0x02, 0x2A, 0x2B], [0x1A, 0x01, 0x01]] [] (by
      intro p hp
      simp only [List.mem_cons, List.not_mem_nil, or_false] at hp
      rcases hp with rfl | rfl | rfl
      · exact ⟨0x10, [0x2A], by decide, rfl⟩
      · exact ⟨0x10, [0x2A, 0x2B], by decide, rfl⟩
      · exact ⟨0x1A, [0x01], by decide, rfl⟩) (List.append_nil _).symm).1

/-- **C05.** If the next byte `b` is not the event indicator, no history takes anything: every result is
`BadPacketType b`, `WouldBlock` or a communication error. -/
theorem C05_stuck (hd : Delivers k stream taken) {s s' : σ} {b : UInt8} (hb : b ≠ 0x04)
    (hs : (pending stream taken s)[0]? = some b)
    {rs : List (Res (Nb (UartError E V.VErr)) (UartPacket V))}
    (h : History stream taken (Uart.read c V k) s rs s') :
    taken s' = taken s ∧ ∀ r ∈ rs, r = .err (.other (.badPacketType b)) ∨ r = .err .wouldBlock ∨
      ∃ e, r = .err (.other (.comm e)) := by
  induction h with
  | nil => exact ⟨rfl, by simp⟩
  | wait h1 h2 _ ih =>
    obtain ⟨i1, i2⟩ := ih (prefix_get (pending_mono h1 h2) hs)
    exact ⟨i1.trans h2, i2⟩
  | @call s r s₁ rs s' hr _ ih =>
    obtain ⟨h1, h2⟩ := uart_step hd hr
    have hg := prefix_get (prefix_drop h1 (taken s)) hs
    rcases h2 with ⟨h2, h3⟩ | ⟨h2, b', -, hg', h3⟩ | ⟨code, ps, -, -, h3, -⟩
    · obtain ⟨i1, i2⟩ := ih (prefix_get (pending_mono h1 h2) hs)
      refine ⟨i1.trans h2, fun r' hr' => ?_⟩
      rcases List.mem_cons.mp hr' with rfl | hr'
      · exact .inr h3
      · exact i2 r' hr'
    · obtain ⟨i1, i2⟩ := ih (prefix_get (pending_mono h1 h2) hs)
      refine ⟨i1.trans h2, fun r' hr' => ?_⟩
      rw [List.getElem?_drop, Nat.add_zero, hg'] at hg
      cases hg
      rcases List.mem_cons.mp hr' with rfl | hr'
      · exact .inl h3
      · exact i2 r' hr'
    · rw [h3] at hg
      exact absurd (Option.some.inj hg).symm hb

/-- Retrying does not help: an ACL data packet is at the head of the queue. -/
example : ∃ s', History (σ := Fifo) Prod.fst Prod.snd (Uart.read ⟨false, false⟩ demoVendor fifo)
    ([0x02, 0x04, 0x10, 0x01, 0x2A], 0)
    [.err (.other (.badPacketType 0x02)), .err (.other (.badPacketType 0x02))] s' :=
  ⟨_, .call (by rw [uartRead_eq]; rfl) (.call (by rw [uartRead_eq]; rfl) (.nil _))⟩

/-- **C05** for a controller that answers when it can: every call returns `BadPacketType b`. -/
theorem C05_every_call (hd : Delivers k stream taken) (hp : Prompt k stream taken) {s s' : σ} {b : UInt8}
    (hb : b ≠ 0x04) (hs : (pending stream taken s)[0]? = some b)
    {rs : List (Res (Nb (UartError E V.VErr)) (UartPacket V))}
    (h : History stream taken (Uart.read c V k) s rs s') :
    ∀ r ∈ rs, r = .err (.other (.badPacketType b)) := by
  induction h with
  | nil => simp
  | wait h1 h2 _ ih => exact ih (prefix_get (pending_mono h1 h2) hs)
  | @call s r s₁ rs s' hr _ ih =>
    obtain ⟨s₂, h1, h2, h3⟩ := peek_prompt hd hp hs
    rw [uartRead_eq, h1] at hr
    simp only [if_neg hb] at hr
    obtain ⟨rfl, rfl⟩ := Prod.mk.inj hr
    intro r hr
    rcases List.mem_cons.mp hr with rfl | hr
    · rfl
    · exact ih (prefix_get (pending_mono h2 h3) hs) r hr

/-- An ACL data packet blocks the event packet behind it. -/
example : (0x02 : UInt8) ≠ 0x04 ∧
    (pending (σ := Fifo) Prod.fst Prod.snd ([0x02, 0x04, 0x10, 0x01, 0x2A], 0))[0]? = some 0x02 ∧
    (callTimes (Uart.read ⟨false, false⟩ demoVendor fifo) 2 ([0x02, 0x04, 0x10, 0x01, 0x2A], 0)).1 =
      [.err (.other (.badPacketType 0x02)), .err (.other (.badPacketType 0x02))] :=
  ⟨by decide, rfl, rfl⟩

end Bt
