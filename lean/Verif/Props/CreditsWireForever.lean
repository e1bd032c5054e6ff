import Verif.Spec.CreditsWireForever
import Verif.Props.CreditsWire
import Verif.Props.CreditsForever
import Verif.Props.CatchUp

/-! # C120: an application that counts credits can always go on, over any stream of bytes -/

namespace Bt

open Spec

variable {σ ε α E : Type} {c : Cfg} {V : Vendor} {N : Nat} {fresh : Prop} {lead : List UInt8} {k : Controller σ E}
  {stream : σ → List UInt8} {taken : σ → Nat} {read : Ctl σ ε α} {outcome : Res ε α → Option (Res V.EvErr V.Ev)}

/-- A call that reports an outcome reads the first notice that is unread. -/
theorem call_reads (hm : Steps stream taken read (lead ++ ·) outcome (Event.new c V)) {s : Wired σ}
    (ha : Aligned lead stream taken s) {r : Res ε α} {port : σ} (hc : read s.port = (r, port))
    (hb : stream port <+: noticeBytes lead s.told) (hr : outcome r ≠ none) {a : Credits}
    (hacc : a = match outcome r with
      | some o => s.account.note o
      | none => s.account) :
    Traffic.ReadNow c V (s.traffic lead taken) (Wired.traffic lead taken { s with port := port, account := a }) := by
  obtain ⟨pre, post, h1, h2, h3⟩ := aligned_way ha
  obtain ⟨-, ⟨-, ho⟩ | ⟨p, hp, ht, hd, ho⟩⟩ := hm _ _ _ hc
  · exact absurd ho hr
  obtain ⟨u, hu⟩ := hb
  have hle : taken s.port ≤ (stream port).length := by
    have := congrArg List.length hd
    have h0 := framed_nonempty hp
    simp only [List.length_drop, List.length_append] at this
    omega
  have hpost : lead ++ p ++ ((stream port).drop (taken port) ++ u) = noticeBytes lead post := by
    have := congrArg (List.drop (taken s.port)) hu
    rw [List.drop_append_of_le_length hle, hd, h1, noticeBytes_append, h2, List.drop_left,
      List.append_assoc] at this
    exact this
  cases post with
  | nil => exact absurd hpost.symm (by
      have h0 := framed_nonempty hp
      intro h
      have := congrArg List.length h
      simp [noticeBytes, transmitted] at this
      omega)
  | cons m post =>
    rw [noticeBytes_cons, List.append_assoc, List.append_assoc] at hpost
    obtain ⟨hpm, -⟩ := framed_prefix hp (ha.framed m (by rw [h1]; simp)) (List.append_cancel_left hpost)
    subst hpm
    have htk : taken port = (noticeBytes lead (pre ++ [m])).length := by
      rw [ht, h2, noticeBytes_append, noticeBytes_cons]
      simp [noticeBytes, transmitted]
    have hun : unread lead s.told (taken port) = post := by
      rw [h1, htk, show pre ++ m :: post = (pre ++ [m]) ++ post by simp]
      exact unread_boundary lead _ post fun x hx => ha.framed x (by rw [h1]; simp [hx])
    refine ⟨m, post, h3, ?_⟩
    rw [ho] at hacc
    simp only [Wired.traffic, hun, hacc]

/-- What a step is without bytes. -/
theorem wired_step (hm : Steps stream taken read (lead ++ ·) outcome (Event.new c V)) {s t : Wired σ}
    (ha : Aligned lead stream taken s) (ha' : Aligned lead stream taken t)
    (h : Wired.Step c V N fresh lead stream taken read outcome s t) :
    stream s.port <+: stream t.port ∧
    (Traffic.ReadNow c V (s.traffic lead taken) (t.traffic lead taken) ∨ taken t.port = taken s.port ∧
      (Traffic.Step c V N fresh (s.traffic lead taken) (t.traffic lead taken) ∨
        t.traffic lead taken = s.traffic lead taken)) := by
  cases h with
  | acts t new hst hw hf =>
    refine ⟨List.prefix_rfl, .inr ⟨rfl, .inl ?_⟩⟩
    obtain ⟨pre, post, h1, h2, h3⟩ := aligned_way ha
    have hu : unread lead (s.told ++ new) (taken s.port) = t.way := by
      rw [hw, h3, h2, h1, List.append_assoc]
      exact unread_boundary lead pre (post ++ new) fun m hm => ha'.framed m (by simp only; rw [h1]; simp_all)
    have : (⟨t.buffer, t.isOpen, s.told ++ new, s.port, t.account⟩ : Wired σ).traffic lead taken = t := by
      simp only [Wired.traffic]
      rw [hu]
    rw [this]
    exact hst
  | arrives port hp ht hb =>
    refine ⟨hp, .inr ⟨ht, .inr ?_⟩⟩
    simp only [Wired.traffic]
    rw [ht]
  | calls r port hc hb =>
    refine ⟨(hm _ _ _ hc).1, ?_⟩
    by_cases hr : outcome r = none
    · obtain ⟨-, ⟨ht, -⟩ | ⟨p, -, -, -, ho⟩⟩ := hm _ _ _ hc
      · refine .inr ⟨ht, .inr ?_⟩
        simp only [Wired.traffic, hr]
        rw [ht]
      · rw [hr] at ho
        cases ho
    · exact .inl (call_reads hm ha hc hb hr rfl)

section
variable {s : Nat → Wired σ}

theorem wired_endless_reached (h : Wired.Endless c V N fresh lead stream taken read outcome s) (i : Nat) :
    Wired.Reached c V N fresh lead stream taken read outcome (s i) := by
  induction i with
  | zero => exact h.start
  | succ i ih => exact ih.step (h.step i)

theorem wired_endless (hm : Steps stream taken read (lead ++ ·) outcome (Event.new c V))
    (h : Wired.Endless c V N fresh lead stream taken read outcome s) :
    Traffic.Endless c V N fresh fun i => (s i).traffic lead taken := by
  have al (i : Nat) := (wired_reached hm (wired_endless_reached h i)).1
  refine ⟨(wired_reached hm h.start).2, fun i => ?_⟩
  obtain ⟨-, ⟨m, rest, h1, h2⟩ | ⟨-, h1⟩⟩ := wired_step hm (al i) (al (i + 1)) (h.step i)
  · refine .inl ?_
    rw [h2]
    exact .reads m rest h1
  · exact h1

theorem wired_keeps_reading {n : Nat} (hm : Steps stream taken read (lead ++ ·) outcome (Event.new c V))
    (hserve : ∀ {s p tail}, ServesNext k stream taken n s → Framed p → pending stream taken s = lead ++ p ++ tail →
      outcome (read s).1 ≠ none)
    (h : Wired.Endless c V N fresh lead stream taken read outcome s)
    (hf : Wired.FairPort k n lead stream taken read outcome s) :
    Traffic.KeepsReading c V fun i => (s i).traffic lead taken := by
  intro i hi
  by_contra hc
  have al (i : Nat) := (wired_reached hm (wired_endless_reached h i)).1
  have hno : ∀ j, i ≤ j → ¬ Traffic.ReadNow c V ((s j).traffic lead taken) ((s (j + 1)).traffic lead taken) :=
    fun j hj hr => hc ⟨j, hj, hr⟩
  have htake : ∀ d, taken (s (i + d)).port = taken (s i).port := by
    intro d
    induction d with
    | zero => rfl
    | succ d ih =>
      rcases (wired_step hm (al (i + d)) (al (i + d + 1)) (h.step (i + d))).2 with h1 | ⟨h1, -⟩
      · exact absurd h1 (hno _ (Nat.le_add_right _ _))
      · exact h1.trans ih
  have hmono : ∀ a d, stream (s a).port <+: stream (s (a + d)).port := by
    intro a d
    induction d with
    | zero => exact List.prefix_rfl
    | succ d ih => exact ih.trans (wired_step hm (al (a + d)) (al (a + d + 1)) (h.step (a + d))).1
  obtain ⟨pre, post, h1, h2, h3⟩ := aligned_way (al i)
  obtain ⟨j, hj, harr⟩ := hf.arrives i
  obtain ⟨l, hl, hs, hcall⟩ := hf.serves j
  obtain ⟨d, rfl⟩ := Nat.exists_eq_add_of_le (Nat.le_trans hj hl)
  obtain ⟨d', hd'⟩ := Nat.exists_eq_add_of_le hl
  have hst := harr.trans (hmono j d')
  rw [← hd'] at hst
  cases post with
  | nil => exact hi h3
  | cons m post =>
    have hpend : ∃ tail, pending stream taken (s (i + d)).port = lead ++ m.bytes ++ tail := by
      obtain ⟨u, hu⟩ := hst
      refine ⟨noticeBytes lead post ++ u, ?_⟩
      unfold pending
      rw [htake d, ← hu, h1, h2, noticeBytes_append, noticeBytes_cons, List.append_assoc, List.drop_left,
        List.append_assoc]
    obtain ⟨tail, hpend⟩ := hpend
    have ho := hserve hs ((al i).framed m (by rw [h1]; simp)) hpend
    refine hno (i + d) (Nat.le_add_right _ _) ?_
    have harr' := (al (i + d + 1)).arrived
    rw [hcall] at harr' ⊢
    exact call_reads hm (al (i + d)) rfl harr' ho rfl

theorem wired_credit_again {n : Nat} (hN : 0 < N) (hm : Steps stream taken read (lead ++ ·) outcome (Event.new c V))
    (hserve : ∀ {s p tail}, ServesNext k stream taken n s → Framed p → pending stream taken s = lead ++ p ++ tail →
      outcome (read s).1 ≠ none)
    (h : Wired.Endless c V N True lead stream taken read outcome s)
    (hf : Wired.FairPort k n lead stream taken read outcome s) (hk : Wired.KeepsFreeing s) (i : Nat) :
    ∃ j, i ≤ j ∧ total (s j).account.out < N :=
  C119_credit_again hN (wired_endless hm h) (wired_keeps_reading hm hserve h hf) hk i

/-- **C120** (`uart`). However the bytes of the events arrive, and however often `read` fails, in an endless execution in which
what is told arrives some time, the controller keeps freeing buffers, and again and again `read` is called when the transport
serves three calls in a row, the application has a credit again and again. -/
theorem C120_uart (hN : 0 < N) (hd : Delivers k stream taken)
    (h : Wired.Endless c V N True [0x04] stream taken (Uart.read c V k) uartOutcome s)
    (hf : Wired.FairPort k 3 [0x04] stream taken (Uart.read c V k) uartOutcome s) (hk : Wired.KeepsFreeing s) (i : Nat) :
    ∃ j, i ≤ j ∧ total (s j).account.out < N :=
  wired_credit_again hN (uart_steps hd) (fun h1 h2 h3 => uart_serves hd h1 h2 h3) h hf hk i

/-- **C120** (`event_link`). The same without packet indicators; two calls in a row are enough. -/
theorem C120_event_link (hN : 0 < N) (hd : Delivers k stream taken)
    (h : Wired.Endless c V N True [] stream taken (EventLink.read c V k) linkOutcome s)
    (hf : Wired.FairPort k 2 [] stream taken (EventLink.read c V k) linkOutcome s) (hk : Wired.KeepsFreeing s) (i : Nat) :
    ∃ j, i ≤ j ∧ total (s j).account.out < N :=
  wired_credit_again hN (link_steps hd) (fun h1 h2 h3 => link_serves hd h1 h2 h3) h hf hk i

end

/-! ## A packet is sent, completed and accounted for, for ever -/

def toldRound (i : Nat) : List Notice := .opened 1 openedOne :: List.replicate i (.completed [(1, 1)])

theorem toldRound_succ (i : Nat) : toldRound (i + 1) = toldRound i ++ [.completed [(1, 1)]] := by
  simp [toldRound, List.replicate_succ']

theorem completed_framed : Framed (Notice.completed [(1, 1)]).bytes := ⟨0x13, [1, 1, 0, 1, 0], by decide, by decide⟩

theorem opened_framed : Framed (Notice.opened 1 openedOne).bytes :=
  ⟨0x3E, [0x01, 0, 1, 0] ++ openedOne, by simp [openedOne], rfl⟩

theorem toldRound_framed (i : Nat) : ∀ m ∈ toldRound i, Framed m.bytes := by
  intro m hm
  rcases List.mem_cons.mp hm with rfl | hm
  · exact opened_framed
  · rw [(List.mem_replicate.mp hm).2]
    exact completed_framed

/-- All bytes that have been told, of which those of `n` rounds have been handed out. -/
def roundPort (lead : List UInt8) (i n : Nat) : Fifo :=
  (noticeBytes lead (toldRound i), (noticeBytes lead (toldRound n)).length)

/-- The states of a round: nothing to do, a packet sent, completed, and its event arrived. -/
def round (lead : List UInt8) (i : Nat) : Wired Fifo :=
  if i % 4 = 0 then ⟨idle.buffer, idle.isOpen, toldRound (i / 4), roundPort lead (i / 4) (i / 4), idle.account⟩
  else if i % 4 = 1 then ⟨busy.buffer, busy.isOpen, toldRound (i / 4), roundPort lead (i / 4) (i / 4), busy.account⟩
  else if i % 4 = 2 then
    ⟨completedOne.buffer, completedOne.isOpen, toldRound (i / 4 + 1), roundPort lead (i / 4) (i / 4), completedOne.account⟩
  else ⟨completedOne.buffer, completedOne.isOpen, toldRound (i / 4 + 1), roundPort lead (i / 4 + 1) (i / 4),
    completedOne.account⟩

theorem round_zero (lead : List UInt8) (i : Nat) :
    round lead (4 * i) = ⟨idle.buffer, idle.isOpen, toldRound i, roundPort lead i i, idle.account⟩ := by
  have h1 : (4 * i) % 4 = 0 := by omega
  have h2 : (4 * i) / 4 = i := by omega
  simp only [round, h1, h2, if_true]

theorem round_one (lead : List UInt8) (i : Nat) :
    round lead (4 * i + 1) = ⟨busy.buffer, busy.isOpen, toldRound i, roundPort lead i i, busy.account⟩ := by
  have h1 : (4 * i + 1) % 4 = 1 := by omega
  have h2 : (4 * i + 1) / 4 = i := by omega
  simp [round, h1, h2]

theorem round_two (lead : List UInt8) (i : Nat) : round lead (4 * i + 2) =
    ⟨completedOne.buffer, completedOne.isOpen, toldRound (i + 1), roundPort lead i i, completedOne.account⟩ := by
  have h1 : (4 * i + 2) % 4 = 2 := by omega
  have h2 : (4 * i + 2) / 4 = i := by omega
  simp [round, h1, h2]

theorem round_three (lead : List UInt8) (i : Nat) : round lead (4 * i + 3) =
    ⟨completedOne.buffer, completedOne.isOpen, toldRound (i + 1), roundPort lead (i + 1) i, completedOne.account⟩ := by
  have h1 : (4 * i + 3) % 4 = 3 := by omega
  have h2 : (4 * i + 3) / 4 = i := by omega
  simp [round, h1, h2]

/-- A method of the queue that takes one notice when it has arrived. -/
def TakesOne (lead : List UInt8) (read : Ctl Fifo ε α) (outcome : Res ε α → Option (Res demoVendor.EvErr demoVendor.Ev)) :
    Prop :=
  ∀ (pre : List Notice) (m : Notice), Framed m.bytes → ∃ r,
    read (noticeBytes lead (pre ++ [m]), (noticeBytes lead pre).length) =
      (r, (noticeBytes lead (pre ++ [m]), (noticeBytes lead (pre ++ [m])).length)) ∧
    outcome r = some (Event.new ⟨false, false⟩ demoVendor m.bytes)

theorem uart_takesOne : TakesOne [0x04] (Uart.read ⟨false, false⟩ demoVendor fifo) uartOutcome := by
  intro pre m hm
  obtain ⟨code, ps, hl, he⟩ := hm
  have hsucc : noticeBytes [0x04] (pre ++ [m]) = noticeBytes [0x04] pre ++ (0x04 :: frame code ps) := by
    rw [noticeBytes_append, noticeBytes_cons, he]
    simp [noticeBytes, transmitted]
  obtain ⟨s', h1, -, h3⟩ := uart_progress (c := ⟨false, false⟩) (V := demoVendor) fifo_delivers fifo_prompt
    (s := (noticeBytes [0x04] (pre ++ [m]), (noticeBytes [0x04] pre).length)) (code := code) (ps := ps) (tail := []) hl (by
      unfold pending
      simp only [hsucc]
      rw [List.drop_left]
      simp)
  have h4 := uart_quiet (c := ⟨false, false⟩) (V := demoVendor) fifo_quiet
    (noticeBytes [0x04] (pre ++ [m]), (noticeBytes [0x04] pre).length)
  rw [h1] at h4
  refine ⟨_, h1.trans (congrArg _ (Prod.ext h4 (h3.trans ?_))), ?_⟩
  · rw [hsucc]
    simp [frame]
    omega
  · rw [he]
    cases Event.new ⟨false, false⟩ demoVendor (frame code ps) <;> rfl

theorem link_takesOne : TakesOne [] (EventLink.read ⟨false, false⟩ demoVendor fifo) linkOutcome := by
  intro pre m hm
  obtain ⟨code, ps, hl, he⟩ := hm
  have hsucc : noticeBytes [] (pre ++ [m]) = noticeBytes [] pre ++ frame code ps := by
    rw [noticeBytes_append, noticeBytes_cons, he]
    simp [noticeBytes, transmitted]
  obtain ⟨s', h1, -, h3⟩ := link_progress (c := ⟨false, false⟩) (V := demoVendor) fifo_delivers fifo_prompt
    (s := (noticeBytes [] (pre ++ [m]), (noticeBytes [] pre).length)) (code := code) (ps := ps) (tail := []) hl (by
      unfold pending
      simp only [hsucc]
      rw [List.drop_left]
      simp)
  have h4 := link_quiet (c := ⟨false, false⟩) (V := demoVendor) fifo_quiet
    (noticeBytes [] (pre ++ [m]), (noticeBytes [] pre).length)
  rw [h1] at h4
  refine ⟨_, h1.trans (congrArg _ (Prod.ext h4 (h3.trans ?_))), ?_⟩
  · rw [hsucc]
    simp [frame]
    omega
  · rw [he]
    cases Event.new ⟨false, false⟩ demoVendor (frame code ps) <;> rfl

section
variable {read : Ctl Fifo ε α} {outcome : Res ε α → Option (Res demoVendor.EvErr demoVendor.Ev)}

theorem round_traffic (lead : List UInt8) (f : UInt16 → Nat) (o : UInt16 → Bool) (a : Credits) (i : Nat) :
    (⟨f, o, toldRound i, roundPort lead i i, a⟩ : Wired Fifo).traffic lead Prod.snd = ⟨f, o, [], a⟩ := by
  have := unread_boundary lead (toldRound i) [] (by simp)
  rw [List.append_nil] at this
  simp only [Wired.traffic, roundPort, this]

theorem round_start (ht : TakesOne lead read outcome) :
    Wired.Reached ⟨false, false⟩ demoVendor 1 True lead Prod.fst Prod.snd read outcome (round lead 0) := by
  have r1 : Wired.Reached ⟨false, false⟩ demoVendor 1 True lead Prod.fst Prod.snd read outcome
      (⟨fun _ => 0, put (fun _ => false) 1 true, [.opened 1 openedOne], (([], 0) : Fifo), {}⟩ : Wired Fifo) :=
    .step (.start (([], 0) : Fifo) rfl rfl)
      (.acts _ [.opened 1 openedOne] (.opens 1 openedOne rfl (by simp [Wired.traffic, unread])) rfl
        (by simp only [List.mem_singleton, forall_eq]; exact opened_framed))
  have r2 : Wired.Reached ⟨false, false⟩ demoVendor 1 True lead Prod.fst Prod.snd read outcome
      (⟨fun _ => 0, put (fun _ => false) 1 true, [.opened 1 openedOne],
        ((noticeBytes lead [.opened 1 openedOne], 0) : Fifo), {}⟩ : Wired Fifo) :=
    r1.step (.arrives ((noticeBytes lead [.opened 1 openedOne], 0) : Fifo) (by simp) rfl List.prefix_rfl)
  obtain ⟨r, h1, h2⟩ := ht [] (.opened 1 openedOne) opened_framed
  have r3 := r2.step (.calls r _ h1 List.prefix_rfl)
  rw [h2] at r3
  simp only at r3
  rw [note_openedOne] at r3
  have := round_zero lead 0
  rw [Nat.mul_zero] at this
  rw [this]
  exact r3

theorem round_called (ht : TakesOne lead read outcome) (i : Nat) : ∃ r,
    read (round lead (4 * i + 3)).port = (r, (round lead (4 * (i + 1))).port) ∧
    outcome r = some (Event.new ⟨false, false⟩ demoVendor (Notice.completed [(1, 1)]).bytes) := by
  obtain ⟨r, h1, h2⟩ := ht (toldRound i) (.completed [(1, 1)]) completed_framed
  rw [← toldRound_succ] at h1
  refine ⟨r, ?_, h2⟩
  rw [round_three, round_zero]
  exact h1

theorem round_endless (ht : TakesOne lead read outcome) :
    Wired.Endless ⟨false, false⟩ demoVendor 1 True lead Prod.fst Prod.snd read outcome (round lead) := by
  refine ⟨round_start ht, fun i => ?_⟩
  obtain ⟨n, rfl | rfl | rfl | rfl⟩ : ∃ n, i = 4 * n ∨ i = 4 * n + 1 ∨ i = 4 * n + 2 ∨ i = 4 * n + 3 :=
    ⟨i / 4, by omega⟩
  · rw [round_zero, round_one]
    have := Wired.Step.acts (c := ⟨false, false⟩) (V := demoVendor) (N := 1) (fresh := True) (lead := lead)
      (stream := Prod.fst) (taken := Prod.snd) (read := read) (outcome := outcome)
      (s := ⟨idle.buffer, idle.isOpen, toldRound n, roundPort lead n n, idle.account⟩) busy []
      (by rw [round_traffic]; exact idle_busy) (by rw [round_traffic]; rfl) (by simp)
    rw [List.append_nil] at this
    exact this
  · rw [round_one, show 4 * n + 1 + 1 = 4 * n + 2 by omega, round_two]
    have := Wired.Step.acts (c := ⟨false, false⟩) (V := demoVendor) (N := 1) (fresh := True) (lead := lead)
      (stream := Prod.fst) (taken := Prod.snd) (read := read) (outcome := outcome)
      (s := ⟨busy.buffer, busy.isOpen, toldRound n, roundPort lead n n, busy.account⟩) completedOne [.completed [(1, 1)]]
      (by rw [round_traffic]; exact busy_completedOne) (by rw [round_traffic]; rfl)
      (by simp only [List.mem_singleton, forall_eq]; exact completed_framed)
    rw [← toldRound_succ] at this
    exact this
  · rw [round_two, show 4 * n + 2 + 1 = 4 * n + 3 by omega, round_three]
    refine .arrives (s := ⟨completedOne.buffer, completedOne.isOpen, toldRound (n + 1), roundPort lead n n,
      completedOne.account⟩) (roundPort lead (n + 1) n) ?_ rfl List.prefix_rfl
    simp only [roundPort, toldRound_succ n, noticeBytes_append]
    exact List.prefix_append _ _
  · obtain ⟨r, h1, h2⟩ := round_called ht n
    rw [show 4 * n + 3 + 1 = 4 * (n + 1) by omega]
    have := Wired.Step.calls (c := ⟨false, false⟩) (V := demoVendor) (N := 1) (fresh := True) (lead := lead)
      (stream := Prod.fst) (taken := Prod.snd) (read := read) (outcome := outcome) (s := round lead (4 * n + 3)) r _ h1
      (by rw [round_zero, round_three]; exact List.prefix_rfl)
    rw [h2, round_three, round_zero] at this
    simp only at this
    rw [completedOne_read] at this
    rw [round_three, round_zero]
    exact this

theorem round_fair (ht : TakesOne lead read outcome) (n : Nat) :
    Wired.FairPort fifo n lead Prod.fst Prod.snd read outcome (round lead) where
  arrives i := by
    refine ⟨4 * (i / 4 + 1), by omega, ?_⟩
    obtain ⟨n, rfl | rfl | rfl | rfl⟩ : ∃ n, i = 4 * n ∨ i = 4 * n + 1 ∨ i = 4 * n + 2 ∨ i = 4 * n + 3 :=
      ⟨i / 4, by omega⟩
    · rw [round_zero, round_zero, show 4 * n / 4 = n by omega]
      simp only [roundPort, toldRound_succ n, noticeBytes_append]
      exact List.prefix_append _ _
    · rw [round_one, round_zero, show (4 * n + 1) / 4 = n by omega]
      simp only [roundPort, toldRound_succ n, noticeBytes_append]
      exact List.prefix_append _ _
    · rw [round_two, round_zero, show (4 * n + 2) / 4 = n by omega]
      exact List.prefix_rfl
    · rw [round_three, round_zero, show (4 * n + 3) / 4 = n by omega]
      exact List.prefix_rfl
  serves i := by
    refine ⟨4 * i + 3, by omega, prompt_serves fifo_prompt n _, ?_⟩
    obtain ⟨r, h1, h2⟩ := round_called ht i
    rw [show 4 * i + 3 + 1 = 4 * (i + 1) by omega]
    unfold Wired.CalledNow
    rw [h1]
    simp only
    rw [h2]
    simp only
    rw [round_three, round_zero]
    simp only
    rw [completedOne_read]
    rfl

theorem round_frees (lead : List UInt8) : Wired.KeepsFreeing (round lead) := by
  intro i h hp
  refine ⟨4 * i + 1, by omega, ?_⟩
  rw [round_one, show 4 * i + 1 + 1 = 4 * i + 2 by omega, round_two]
  have hh : h = 1 := by
    obtain ⟨n, rfl | rfl | rfl | rfl⟩ : ∃ n, i = 4 * n ∨ i = 4 * n + 1 ∨ i = 4 * n + 2 ∨ i = 4 * n + 3 :=
      ⟨i / 4, by omega⟩
    · rw [round_zero] at hp
      exact absurd hp (Nat.lt_irrefl 0)
    · rw [round_one] at hp
      by_contra hne
      simp [busy, put, hne] at hp
    · rw [round_two] at hp
      exact absurd hp (Nat.lt_irrefl 0)
    · rw [round_three] at hp
      exact absurd hp (Nat.lt_irrefl 0)
  subst hh
  exact Nat.zero_lt_one

end

/-- The hypotheses can be met by an execution in which packets are sent for ever, over a UART. -/
example (i : Nat) : ∃ j, i ≤ j ∧ total (round [0x04] j).account.out < 1 :=
  C120_uart (by omega) fifo_delivers (round_endless uart_takesOne) (round_fair uart_takesOne 3) (round_frees _) i

/-- And over an event link. -/
example (i : Nat) : ∃ j, i ≤ j ∧ total (round [] j).account.out < 1 :=
  C120_event_link (by omega) fifo_delivers (round_endless link_takesOne) (round_fair link_takesOne 2) (round_frees _) i

end Bt
