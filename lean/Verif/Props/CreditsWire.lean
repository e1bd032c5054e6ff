import Verif.Spec.CreditsWire
import Verif.Props.Credits
import Verif.Props.Streams
import Verif.Props.EventLink

/-! # C115: counting credits over a stream of bytes -/

namespace Bt

open Spec

variable {σ ε α E : Type} {c : Cfg} {V : Vendor} {N : Nat} {fresh : Prop} {lead : List UInt8} {k : Controller σ E}
  {stream : σ → List UInt8} {taken : σ → Nat} {read : Ctl σ ε α} {outcome : Res ε α → Option (Res V.EvErr V.Ev)}

theorem noticeBytes_append (lead : List UInt8) (a b : List Notice) :
    noticeBytes lead (a ++ b) = noticeBytes lead a ++ noticeBytes lead b := by
  simp [noticeBytes, transmitted]

theorem noticeBytes_cons (lead : List UInt8) (m : Notice) (b : List Notice) :
    noticeBytes lead (m :: b) = lead ++ m.bytes ++ noticeBytes lead b := by
  simp [noticeBytes, transmitted]

theorem framed_nonempty {p : List UInt8} (h : Framed p) : 0 < p.length := by
  obtain ⟨a, ps, -, rfl⟩ := h
  simp [frame]

/-- At the end of a notice, the notices after it are unread. -/
theorem unread_boundary (lead : List UInt8) (pre post : List Notice) (hp : ∀ m ∈ post, Framed m.bytes) :
    unread lead (pre ++ post) (noticeBytes lead pre).length = post := by
  induction pre with
  | nil =>
    cases post with
    | nil => rfl
    | cons m post =>
      have := framed_nonempty (hp m (by simp))
      have h0 : (noticeBytes lead []).length = 0 := rfl
      rw [List.nil_append, h0, unread, if_neg]
      rw [List.length_append]
      omega
  | cons m pre ih =>
    rw [List.cons_append, unread, noticeBytes_cons, List.length_append (as := lead ++ m.bytes),
      if_pos (Nat.le_add_right _ _), Nat.add_sub_cancel_left, ih]

/-- What holds in every state: the bytes that have arrived are the beginning of those told, and the bytes handed out are those
of whole notices. -/
structure Aligned (lead : List UInt8) (stream : σ → List UInt8) (taken : σ → Nat) (s : Wired σ) : Prop where
  arrived : stream s.port <+: noticeBytes lead s.told
  framed : ∀ m ∈ s.told, Framed m.bytes
  whole : ∃ pre post, s.told = pre ++ post ∧ taken s.port = (noticeBytes lead pre).length

theorem aligned_way {s : Wired σ} (h : Aligned lead stream taken s) :
    ∃ pre post, s.told = pre ++ post ∧ taken s.port = (noticeBytes lead pre).length ∧
      (s.traffic lead taken).way = post := by
  obtain ⟨pre, post, h1, h2⟩ := h.whole
  refine ⟨pre, post, h1, h2, ?_⟩
  simp only [Wired.traffic]
  rw [h1, h2]
  exact unread_boundary lead pre post fun m hm => h.framed m (by rw [h1]; simp [hm])

theorem wired_reached (hm : Steps stream taken read (lead ++ ·) outcome (Event.new c V)) {s : Wired σ}
    (h : Wired.Reached c V N fresh lead stream taken read outcome s) :
    Aligned lead stream taken s ∧ Traffic.Reached c V N fresh (s.traffic lead taken) := by
  induction h with
  | start port h1 h2 =>
    refine ⟨⟨by simp [h1], by simp, [], [], rfl, by simp [h2, noticeBytes, transmitted]⟩, ?_⟩
    exact .start
  | @step s t _ hs ih =>
    obtain ⟨ha, hr⟩ := ih
    obtain ⟨pre, post, h1, h2, h3⟩ := aligned_way ha
    cases hs with
    | acts t new hst hw hf =>
      have hframed : ∀ m ∈ s.told ++ new, Framed m.bytes := fun m hm => by
        rcases List.mem_append.mp hm with h | h
        · exact ha.framed m h
        · exact hf m h
      have hal : Aligned lead stream taken
          (⟨t.buffer, t.isOpen, s.told ++ new, s.port, t.account⟩ : Wired σ) := by
        refine ⟨?_, hframed, pre, post ++ new, by simp [h1], h2⟩
        simp only
        rw [noticeBytes_append]
        exact ha.arrived.trans (List.prefix_append _ _)
      refine ⟨hal, ?_⟩
      have : (⟨t.buffer, t.isOpen, s.told ++ new, s.port, t.account⟩ : Wired σ).traffic lead taken = t := by
        have hu : unread lead (s.told ++ new) (taken s.port) = t.way := by
          rw [hw, h3, h2, h1, List.append_assoc]
          exact unread_boundary lead pre (post ++ new) fun m hm => hframed m (by rw [h1]; simp_all)
        simp only [Wired.traffic]
        rw [hu]
      rw [this]
      exact hr.step hst
    | arrives port hp ht hb =>
      refine ⟨⟨hb, ha.framed, pre, post, h1, by simp only; rw [ht, h2]⟩, ?_⟩
      have : ({ s with port := port } : Wired σ).traffic lead taken = s.traffic lead taken := by
        simp only [Wired.traffic]
        rw [ht]
      rw [this]
      exact hr
    | calls r port hc hb =>
      obtain ⟨-, ⟨ht, ho⟩ | ⟨p, hp, ht, hd, ho⟩⟩ := hm _ _ _ hc
      · refine ⟨⟨hb, ha.framed, pre, post, h1, by simp only; rw [ht, h2]⟩, ?_⟩
        simp only [Wired.traffic, ho]
        rw [ht]
        exact hr
      · -- the packet taken is the first notice that was unread
        obtain ⟨u, hu⟩ := hb
        have hle : taken s.port ≤ (stream port).length := by
          have := congrArg List.length hd
          have h0 := framed_nonempty hp
          simp only [List.length_drop, List.length_append] at this
          omega
        have hpost : lead ++ p ++ ((stream port).drop (taken port) ++ u) = noticeBytes lead post := by
          have := congrArg (List.drop (taken s.port)) hu
          rw [List.drop_append_of_le_length hle, hd, h1, noticeBytes_append, h2, List.drop_left,
            List.append_assoc] at this
          exact this
        cases post with
        | nil => exact absurd hpost.symm (by
            have h0 := framed_nonempty hp
            intro h
            have := congrArg List.length h
            simp [noticeBytes, transmitted] at this
            omega)
        | cons m post =>
          rw [noticeBytes_cons, List.append_assoc, List.append_assoc] at hpost
          obtain ⟨hpm, -⟩ := framed_prefix hp (ha.framed m (by rw [h1]; simp)) (List.append_cancel_left hpost)
          subst hpm
          have htk : taken port = (noticeBytes lead (pre ++ [m])).length := by
            rw [ht, h2, noticeBytes_append, noticeBytes_cons]
            simp [noticeBytes, transmitted]
          refine ⟨⟨⟨u, hu⟩, ha.framed, pre ++ [m], post, by simp [h1], htk⟩, ?_⟩
          have hstep := hr.step (Traffic.Step.reads (c := c) (V := V) (N := N) (fresh := fresh) m post h3)
          have hun : unread lead s.told (taken port) = post := by
            rw [h1, htk, show pre ++ m :: post = (pre ++ [m]) ++ post by simp]
            exact unread_boundary lead _ post fun x hx => ha.framed x (by rw [h1]; simp [hx])
          simp only [Wired.traffic, ho, hun]
          exact hstep

theorem all_read (hm : Steps stream taken read (lead ++ ·) outcome (Event.new c V)) {s : Wired σ}
    (h : Wired.Reached c V N True lead stream taken read outcome s)
    (ht : taken s.port = (noticeBytes lead s.told).length) :
    s.account.out = s.buffer ∧ ∀ g, s.account.known g = true → s.isOpen g = true := by
  obtain ⟨ha, hr⟩ := wired_reached hm h
  have hw : (s.traffic lead taken).way = [] := by
    have := unread_boundary lead s.told [] (by simp)
    rw [List.append_nil] at this
    simp only [Wired.traffic]
    rw [ht, this]
  refine ⟨funext fun g => ?_, fun g hg => ?_⟩
  · have := C114_no_credit_lost hr g
    rw [hw] at this
    exact this
  · exact C114_known hr g (by rw [hw]; exact hg)

/-- **C115** (`uart`). However the bytes of the events arrive, and whenever `read` is called, succeeding or failing, the
buffers of the controller are not overrun. -/
theorem C115_uart (hd : Delivers k stream taken) {s : Wired σ}
    (h : Wired.Reached c V N True [0x04] stream taken (Uart.read c V k) uartOutcome s) : total s.buffer ≤ N := by
  have := C114_never_overrun (wired_reached (uart_steps hd) h).2
  rwa [Wired.traffic] at this

/-- **C115** (`event_link`). The same without packet indicators. -/
theorem C115_event_link (hd : Delivers k stream taken) {s : Wired σ}
    (h : Wired.Reached c V N True [] stream taken (EventLink.read c V k) linkOutcome s) : total s.buffer ≤ N := by
  have := C114_never_overrun (wired_reached (link_steps hd) h).2
  rwa [Wired.traffic] at this

/-- **C115** (`uart`). When all bytes have been handed out, the account is what is in the buffers, and every connection that
the application knows of is open. -/
theorem C115_uart_exact (hd : Delivers k stream taken) {s : Wired σ}
    (h : Wired.Reached c V N True [0x04] stream taken (Uart.read c V k) uartOutcome s)
    (ht : taken s.port = (noticeBytes [0x04] s.told).length) :
    s.account.out = s.buffer ∧ ∀ g, s.account.known g = true → s.isOpen g = true :=
  all_read (uart_steps hd) h ht

/-- **C115** (`event_link`). The same without packet indicators. -/
theorem C115_event_link_exact (hd : Delivers k stream taken) {s : Wired σ}
    (h : Wired.Reached c V N True [] stream taken (EventLink.read c V k) linkOutcome s)
    (ht : taken s.port = (noticeBytes [] s.told).length) :
    s.account.out = s.buffer ∧ ∀ g, s.account.known g = true → s.isOpen g = true :=
  all_read (link_steps hd) h ht

/-- The event that a connection with handle 1 has been opened, on a UART. -/
def openedWire : List UInt8 := 0x04 :: (Notice.opened 1 openedOne).bytes

/-- On a UART the connection of handle 1 is opened, its event arrives in two pieces, `read` is called after each, and then a
packet is sent into the only buffer. -/
example : ∃ s, Wired.Reached ⟨false, false⟩ demoVendor 1 True [0x04] Prod.fst Prod.snd
    (Uart.read ⟨false, false⟩ demoVendor fifo) uartOutcome s ∧ s.buffer 1 = 1 ∧ s.account.out 1 = 1 ∧ s.told.length = 1 := by
  have hz := total_zero
  generalize hrd : Uart.read ⟨false, false⟩ demoVendor fifo = rd
  let on : UInt16 → Bool := put (fun _ => false) 1 true
  have r1 : Wired.Reached ⟨false, false⟩ demoVendor 1 True [0x04] Prod.fst Prod.snd rd uartOutcome
      ⟨fun _ => 0, on, [.opened 1 openedOne], ([], 0), {}⟩ :=
    .step (.start (([], 0) : Fifo) rfl rfl)
      (.acts _ [.opened 1 openedOne] (.opens 1 openedOne rfl (by simp [Wired.traffic, unread])) rfl
        (by simp only [List.mem_singleton, forall_eq]; exact ⟨0x3E, [0x01, 0, 1, 0] ++ openedOne, by simp [openedOne], rfl⟩))
  have w1 : openedWire.take 7 <+: noticeBytes [0x04] [.opened 1 openedOne] := ⟨openedWire.drop 7, rfl⟩
  have w2 : openedWire <+: noticeBytes [0x04] [.opened 1 openedOne] := ⟨[], rfl⟩
  have r2 : Wired.Reached ⟨false, false⟩ demoVendor 1 True [0x04] Prod.fst Prod.snd rd uartOutcome
      ⟨fun _ => 0, on, [.opened 1 openedOne], (openedWire.take 7, 0), {}⟩ :=
    r1.step (.arrives ((openedWire.take 7, 0) : Fifo) (by simp) rfl w1)
  have c1 : rd (openedWire.take 7, 0) = (.err .wouldBlock, (openedWire.take 7, 0)) := by
    rw [← hrd, uartRead_eq]
    rfl
  have r3 : Wired.Reached ⟨false, false⟩ demoVendor 1 True [0x04] Prod.fst Prod.snd rd uartOutcome
      ⟨fun _ => 0, on, [.opened 1 openedOne], (openedWire.take 7, 0), {}⟩ := by
    have := r2.step (.calls _ _ c1 w1)
    exact this
  have r4 : Wired.Reached ⟨false, false⟩ demoVendor 1 True [0x04] Prod.fst Prod.snd rd uartOutcome
      ⟨fun _ => 0, on, [.opened 1 openedOne], (openedWire, 0), {}⟩ :=
    r3.step (.arrives ((openedWire, 0) : Fifo) (List.take_prefix _ _) rfl w2)
  have c2 : rd (openedWire, 0) =
      (uartResult (Event.new ⟨false, false⟩ demoVendor (Notice.opened 1 openedOne).bytes), (openedWire, 22)) := by
    rw [← hrd, uartRead_eq]
    rfl
  have r5 : Wired.Reached ⟨false, false⟩ demoVendor 1 True [0x04] Prod.fst Prod.snd rd uartOutcome
      ⟨fun _ => 0, on, [.opened 1 openedOne], (openedWire, 22), ⟨on, fun _ => 0⟩⟩ := by
    have := r4.step (.calls _ _ c2 w2)
    exact this
  have st := Traffic.Step.send (c := ⟨false, false⟩) (V := demoVendor) (N := 1) (fresh := True)
    (s := Wired.traffic [0x04] Prod.snd
      ⟨fun _ => 0, on, [.opened 1 openedOne], ((openedWire, 22) : Fifo), ⟨on, fun _ => 0⟩⟩) 1 rfl (by
      simp only [Wired.traffic]
      omega)
  have r6 := r5.step (.acts _ [] st (List.append_nil _).symm (by simp))
  exact ⟨_, r6, rfl, rfl, rfl⟩

end Bt
