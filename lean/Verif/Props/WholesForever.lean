import Verif.Spec.WholesForever
import Verif.Props.Wholes
import Verif.Props.CatchUp

/-! # C121: reasoning with whole packets about endless executions carries over to streams of bytes -/

namespace Bt

open Spec

variable {X A σ ε α E : Type} {c : Cfg} {V : Vendor} {init : X → A → Prop} {env : Env X A}
  {note : A → Res V.EvErr V.Ev → A} {lead : List UInt8} {k : Controller σ E}
  {stream : σ → List UInt8} {taken : σ → Nat} {read : Ctl σ ε α} {outcome : Res ε α → Option (Res V.EvErr V.Ev)}

/-- A call that reports an outcome reads the first packet that is not taken. -/
theorem call_takes (hm : Steps stream taken read (lead ++ ·) outcome (Event.new c V)) {s t : Bytes X A σ}
    (ha : AtBoundary lead stream taken s) (hc : Bytes.CallNow note read outcome s t)
    (hb : stream t.port <+: transmitted lead s.told) (hr : outcome (read s.port).1 ≠ none) :
    World.ReadNow c V note (s.world lead taken) (t.world lead taken) := by
  unfold Bytes.CallNow at hc
  subst hc
  obtain ⟨pre, post, h1, h2, h3⟩ := boundary_way ha
  generalize hq : read s.port = q at hr hb ⊢
  obtain ⟨r, port⟩ := q
  simp only at hr hb ⊢
  obtain ⟨-, ⟨-, ho⟩ | ⟨p, hp, ht, hd, ho⟩⟩ := hm _ _ _ hq
  · exact absurd ho hr
  obtain ⟨u, hu⟩ := hb
  have h0 := framed_pos hp
  have hle : taken s.port ≤ (stream port).length := by
    have := congrArg List.length hd
    simp only [List.length_drop, List.length_append] at this
    omega
  have hpost : lead ++ p ++ ((stream port).drop (taken port) ++ u) = transmitted lead post := by
    have := congrArg (List.drop (taken s.port)) hu
    rw [List.drop_append_of_le_length hle, hd, h1, transmitted_append, h2, List.drop_left, List.append_assoc] at this
    exact this
  cases post with
  | nil => exact absurd hpost.symm (by
      intro h
      have := congrArg List.length h
      simp [transmitted] at this
      omega)
  | cons m post =>
    rw [transmitted_cons, List.append_assoc, List.append_assoc] at hpost
    obtain ⟨rfl, -⟩ := framed_prefix hp (ha.framed m (by rw [h1]; simp)) (List.append_cancel_left hpost)
    have htk : taken port = (transmitted lead (pre ++ [p])).length := by
      rw [ht, h2, transmitted_append, transmitted_cons]
      simp [transmitted]
    have hun : notTaken lead s.told (taken port) = post := by
      rw [h1, htk, show pre ++ p :: post = (pre ++ [p]) ++ post by simp]
      exact notTaken_boundary lead _ post fun x hx => ha.framed x (by rw [h1]; simp [hx])
    exact ⟨p, post, h3, by simp [Bytes.world, ho, hun]⟩

section
variable {s : Nat → Bytes X A σ}

theorem byte_endless_run (h : ByteEndless c V init env note lead stream taken read outcome s) (i : Nat) :
    ByteRun c V init env note lead stream taken read outcome (s i) := by
  induction i with
  | zero => exact h.start
  | succ i ih =>
    rcases h.step i with ⟨x, new, a, h1, h2, h3⟩ | ⟨port, h1, h2, h3, h4⟩ | ⟨h1, h2⟩
    · rw [h3]
      exact .acts ih h1 h2
    · rw [h4]
      exact .arrives ih h1 h2 h3
    · unfold Bytes.CallNow at h1
      rw [h1] at h2 ⊢
      exact .calls ih rfl h2

theorem byte_step (hm : Steps stream taken read (lead ++ ·) outcome (Event.new c V))
    (h : ByteEndless c V init env note lead stream taken read outcome s) (i : Nat) :
    stream (s i).port <+: stream (s (i + 1)).port ∧
    (World.ReadNow c V note ((s i).world lead taken) ((s (i + 1)).world lead taken) ∨
      taken (s (i + 1)).port = taken (s i).port ∧
      (World.ActNow env ((s i).world lead taken) ((s (i + 1)).world lead taken) ∨
        (s (i + 1)).world lead taken = (s i).world lead taken)) := by
  have ha := (byte_run hm (byte_endless_run h i)).1
  rcases h.step i with ⟨x, new, a, h1, h2, h3⟩ | ⟨port, h1, h2, -, h4⟩ | ⟨h1, h2⟩
  · have ha' := (byte_run hm (byte_endless_run h (i + 1))).1
    rw [h3] at ha' ⊢
    refine ⟨List.prefix_rfl, .inr ⟨rfl, .inl ⟨x, new, a, h1, h2, ?_⟩⟩⟩
    obtain ⟨pre, post, e1, e2, e3⟩ := boundary_way ha
    have hu : notTaken lead ((s i).told ++ new) (taken (s i).port) = notTaken lead (s i).told (taken (s i).port) ++ new := by
      rw [e3, e2, e1, List.append_assoc]
      exact notTaken_boundary lead pre (post ++ new) fun p hp => ha'.framed p (by simp only; rw [e1]; simp_all)
    simp only [Bytes.world]
    rw [hu]
  · rw [h4]
    refine ⟨h1, .inr ⟨h2, .inr ?_⟩⟩
    simp only [Bytes.world]
    rw [h2]
  · by_cases hr : outcome (read (s i).port).1 = none
    · have h3 := h1
      unfold Bytes.CallNow at h3
      obtain ⟨e1, ⟨ht, -⟩ | ⟨p, -, -, -, ho⟩⟩ := hm _ _ _ (rfl : read (s i).port = ((read (s i).port).1, (read (s i).port).2))
      · rw [h3, hr]
        refine ⟨e1, .inr ⟨ht, .inr ?_⟩⟩
        simp only [Bytes.world, Option.map_none, Option.getD_none]
        rw [ht]
      · rw [hr] at ho
        cases ho
    · refine ⟨?_, .inl (call_takes hm ha h1 h2 hr)⟩
      have h3 := h1
      unfold Bytes.CallNow at h3
      rw [h3]
      exact (hm _ _ _ rfl).1

theorem byte_endless (hm : Steps stream taken read (lead ++ ·) outcome (Event.new c V))
    (h : ByteEndless c V init env note lead stream taken read outcome s) :
    PacketEndless c V init env note fun i => (s i).world lead taken := by
  refine ⟨(byte_run hm h.start).2, fun i => ?_⟩
  obtain ⟨-, h1 | ⟨-, h1 | h1⟩⟩ := byte_step hm h i
  · exact .inr (.inl h1)
  · exact .inl h1
  · exact .inr (.inr h1)

theorem byte_packets_read {n : Nat} (hm : Steps stream taken read (lead ++ ·) outcome (Event.new c V))
    (hserve : ∀ {s p tail}, ServesNext k stream taken n s → Framed p → pending stream taken s = lead ++ p ++ tail →
      outcome (read s).1 ≠ none)
    (h : ByteEndless c V init env note lead stream taken read outcome s)
    (hf : BytesFair k n note lead stream taken read outcome s) :
    PacketsRead c V note fun i => (s i).world lead taken := by
  intro i hi
  by_contra hc
  have al (i : Nat) := (byte_run hm (byte_endless_run h i)).1
  have hno : ∀ j, i ≤ j → ¬ World.ReadNow c V note ((s j).world lead taken) ((s (j + 1)).world lead taken) :=
    fun j hj hr => hc ⟨j, hj, hr⟩
  have htake : ∀ d, taken (s (i + d)).port = taken (s i).port := by
    intro d
    induction d with
    | zero => rfl
    | succ d ih =>
      rcases (byte_step hm h (i + d)).2 with h1 | ⟨h1, -⟩
      · exact absurd h1 (hno _ (Nat.le_add_right _ _))
      · exact h1.trans ih
  have hmono : ∀ a d, stream (s a).port <+: stream (s (a + d)).port := by
    intro a d
    induction d with
    | zero => exact List.prefix_rfl
    | succ d ih => exact ih.trans (byte_step hm h (a + d)).1
  obtain ⟨pre, post, h1, h2, h3⟩ := boundary_way (al i)
  obtain ⟨j, hj, harr⟩ := hf.arrives i
  obtain ⟨l, hl, hs, hcall⟩ := hf.serves j
  obtain ⟨d, rfl⟩ := Nat.exists_eq_add_of_le (Nat.le_trans hj hl)
  obtain ⟨d', hd'⟩ := Nat.exists_eq_add_of_le hl
  have hst := harr.trans (hmono j d')
  rw [← hd'] at hst
  cases post with
  | nil => exact hi h3
  | cons m post =>
    have hpend : ∃ tail, pending stream taken (s (i + d)).port = lead ++ m ++ tail := by
      obtain ⟨u, hu⟩ := hst
      refine ⟨transmitted lead post ++ u, ?_⟩
      unfold pending
      rw [htake d, ← hu, h1, h2, transmitted_append, transmitted_cons, List.append_assoc, List.drop_left,
        List.append_assoc]
    obtain ⟨tail, hpend⟩ := hpend
    have ho := hserve hs ((al i).framed m (by rw [h1]; simp)) hpend
    refine hno (i + d) (Nat.le_add_right _ _) (call_takes hm (al (i + d)) hcall ?_ ho)
    have harr' := (al (i + d + 1)).arrived
    have hc' := hcall
    unfold Bytes.CallNow at hc'
    rwa [show (s (i + d + 1)).told = (s (i + d)).told by rw [hc']] at harr'

/-- **C121** (`uart`). Every endless execution with bytes is, with whole packets, an endless execution; and if the transport is
fair, one in which the application keeps reading. So what is proved of all these executions with whole packets, be it that
something never happens or that something happens some time, holds with bytes. -/
theorem C121_uart (hd : Delivers k stream taken)
    (h : ByteEndless c V init env note [0x04] stream taken (Uart.read c V k) uartOutcome s) :
    PacketEndless c V init env note (fun i => (s i).world [0x04] taken) ∧
      (BytesFair k 3 note [0x04] stream taken (Uart.read c V k) uartOutcome s →
        PacketsRead c V note fun i => (s i).world [0x04] taken) :=
  ⟨byte_endless (uart_steps hd) h,
    byte_packets_read (uart_steps hd) (fun h1 h2 h3 => uart_serves hd h1 h2 h3) h⟩

/-- **C121** (`event_link`). The same without packet indicators; two calls in a row are enough. -/
theorem C121_event_link (hd : Delivers k stream taken)
    (h : ByteEndless c V init env note [] stream taken (EventLink.read c V k) linkOutcome s) :
    PacketEndless c V init env note (fun i => (s i).world [] taken) ∧
      (BytesFair k 2 note [] stream taken (EventLink.read c V k) linkOutcome s →
        PacketsRead c V note fun i => (s i).world [] taken) :=
  ⟨byte_endless (link_steps hd) h,
    byte_packets_read (link_steps hd) (fun h1 h2 h3 => link_serves hd h1 h2 h3) h⟩

/-! ## An application that changes only by reading -/

theorem first_noted {w : Nat → World X A} (h : PacketEndless c V init env note w)
    (henv : ∀ s x new a, env s x new a → a = s.a) (p : List UInt8) (rest : List (List UInt8)) (d : Nat) :
    ∀ i, p :: rest <+: (w i).way → World.ReadNow c V note (w (i + d)) (w (i + d + 1)) →
      ∃ j, i ≤ j ∧ rest <+: (w j).way ∧ (w j).a = note (w i).a (Event.new c V p) := by
  have now (i : Nat) (hw : p :: rest <+: (w i).way) (hr : World.ReadNow c V note (w i) (w (i + 1))) :
      ∃ j, i ≤ j ∧ rest <+: (w j).way ∧ (w j).a = note (w i).a (Event.new c V p) := by
    obtain ⟨p', rest', h1, h2⟩ := hr
    rw [h1, List.cons_prefix_cons] at hw
    obtain ⟨rfl, hw⟩ := hw
    exact ⟨i + 1, by omega, by rw [h2]; exact hw, by rw [h2]⟩
  induction d with
  | zero => exact fun i hw hr => now i hw hr
  | succ d ih =>
    intro i hw hr
    have later (h1 : (w (i + 1)).a = (w i).a) (h2 : (w i).way <+: (w (i + 1)).way) :
        ∃ j, i ≤ j ∧ rest <+: (w j).way ∧ (w j).a = note (w i).a (Event.new c V p) := by
      obtain ⟨j, hj, h3, h4⟩ := ih (i + 1) (hw.trans h2) (by rwa [show i + 1 + d = i + (d + 1) by omega])
      exact ⟨j, by omega, h3, h4.trans (by rw [h1])⟩
    rcases h.step i with ⟨x, new, a, h1, -, h2⟩ | h1 | h1
    · exact later (by rw [h2]; exact henv _ _ _ _ h1) (by rw [h2]; exact List.prefix_append _ _)
    · exact now i hw h1
    · exact later (by rw [h1]) (by rw [h1]; exact List.prefix_rfl)

theorem all_noted {w : Nat → World X A} (h : PacketEndless c V init env note w) (hr : PacketsRead c V note w)
    (henv : ∀ s x new a, env s x new a → a = s.a) (way : List (List UInt8)) :
    ∀ i, way <+: (w i).way → ∃ j, i ≤ j ∧ (w j).a = (way.map (Event.new c V)).foldl note (w i).a := by
  induction way with
  | nil => exact fun i _ => ⟨i, Nat.le_refl i, rfl⟩
  | cons p rest ih =>
    intro i hw
    obtain ⟨j, hj, hrj⟩ := hr i (by intro h0; rw [h0] at hw; simp at hw)
    obtain ⟨d, rfl⟩ := Nat.exists_eq_add_of_le hj
    obtain ⟨l, hl, h1, h2⟩ := first_noted h henv p rest d i hw hrj
    obtain ⟨m, hm, h3⟩ := ih l h1
    exact ⟨m, by omega, h3.trans (by rw [h2]; rfl)⟩

/-- **C121** (`uart`). So an application that changes only by reading comes, some time after any time, to exactly what the
packets that have been told up to that time amount to. -/
theorem C121_uart_catches_up (hd : Delivers k stream taken)
    (h : ByteEndless c V init env note [0x04] stream taken (Uart.read c V k) uartOutcome s)
    (hf : BytesFair k 3 note [0x04] stream taken (Uart.read c V k) uartOutcome s)
    (henv : ∀ s x new a, env s x new a → a = s.a) (i : Nat) :
    ∃ j, i ≤ j ∧ (s j).a =
      ((notTaken [0x04] (s i).told (taken (s i).port)).map (Event.new c V)).foldl note (s i).a :=
  all_noted (C121_uart hd h).1 ((C121_uart hd h).2 hf) henv _ i List.prefix_rfl

/-- **C121** (`event_link`). The same without packet indicators. -/
theorem C121_event_link_catches_up (hd : Delivers k stream taken)
    (h : ByteEndless c V init env note [] stream taken (EventLink.read c V k) linkOutcome s)
    (hf : BytesFair k 2 note [] stream taken (EventLink.read c V k) linkOutcome s)
    (henv : ∀ s x new a, env s x new a → a = s.a) (i : Nat) :
    ∃ j, i ≤ j ∧ (s j).a =
      ((notTaken [] (s i).told (taken (s i).port)).map (Event.new c V)).foldl note (s i).a :=
  all_noted (C121_event_link hd h).1 ((C121_event_link hd h).2 hf) henv _ i List.prefix_rfl

end

/-! ## An application that counts what it is told, for ever -/

/-- At any time Hardware Error is told. -/
def errorsTold : Env Unit Nat := fun s _ new a => new = [[0x10, 0x01, 0x2A]] ∧ a = s.a

/-- The application counts what it reads. -/
def counting : Nat → Res demoVendor.EvErr demoVendor.Ev → Nat := fun a _ => a + 1

def errorsBytes (lead : List UInt8) (i : Nat) : List UInt8 := transmitted lead (List.replicate i [0x10, 0x01, 0x2A])

theorem errorsBytes_succ (lead : List UInt8) (i : Nat) :
    errorsBytes lead (i + 1) = errorsBytes lead i ++ (lead ++ [0x10, 0x01, 0x2A]) := by
  simp [errorsBytes, transmitted, List.replicate_succ']

/-- The states of a round: all is read, an error is told, and has arrived. -/
def turn (lead : List UInt8) (i : Nat) : Bytes Unit Nat Fifo :=
  if i % 3 = 0 then
    ⟨(), List.replicate (i / 3) [0x10, 0x01, 0x2A], (errorsBytes lead (i / 3), (errorsBytes lead (i / 3)).length), i / 3⟩
  else if i % 3 = 1 then
    ⟨(), List.replicate (i / 3 + 1) [0x10, 0x01, 0x2A], (errorsBytes lead (i / 3), (errorsBytes lead (i / 3)).length), i / 3⟩
  else
    ⟨(), List.replicate (i / 3 + 1) [0x10, 0x01, 0x2A], (errorsBytes lead (i / 3 + 1), (errorsBytes lead (i / 3)).length),
      i / 3⟩

theorem turn_zero (lead : List UInt8) (n : Nat) : turn lead (3 * n) =
    ⟨(), List.replicate n [0x10, 0x01, 0x2A], (errorsBytes lead n, (errorsBytes lead n).length), n⟩ := by
  have h1 : (3 * n) % 3 = 0 := by omega
  have h2 : (3 * n) / 3 = n := by omega
  simp only [turn, h1, h2, if_true]

theorem turn_one (lead : List UInt8) (n : Nat) : turn lead (3 * n + 1) =
    ⟨(), List.replicate (n + 1) [0x10, 0x01, 0x2A], (errorsBytes lead n, (errorsBytes lead n).length), n⟩ := by
  have h1 : (3 * n + 1) % 3 = 1 := by omega
  have h2 : (3 * n + 1) / 3 = n := by omega
  simp [turn, h1, h2]

theorem turn_two (lead : List UInt8) (n : Nat) : turn lead (3 * n + 2) =
    ⟨(), List.replicate (n + 1) [0x10, 0x01, 0x2A], (errorsBytes lead (n + 1), (errorsBytes lead n).length), n⟩ := by
  have h1 : (3 * n + 2) % 3 = 2 := by omega
  have h2 : (3 * n + 2) / 3 = n := by omega
  simp [turn, h1, h2]

section
variable {read : Ctl Fifo ε α} {outcome : Res ε α → Option (Res demoVendor.EvErr demoVendor.Ev)}

/-- A method of the queue that takes one of the packets. -/
def TakesError (lead : List UInt8) (read : Ctl Fifo ε α) (outcome : Res ε α → Option (Res demoVendor.EvErr demoVendor.Ev)) :
    Prop :=
  ∀ n, (read (errorsBytes lead (n + 1), (errorsBytes lead n).length)).2 =
      (errorsBytes lead (n + 1), (errorsBytes lead (n + 1)).length) ∧
    ∃ o, outcome (read (errorsBytes lead (n + 1), (errorsBytes lead n).length)).1 = some o

theorem turn_called (ht : TakesError lead read outcome) (n : Nat) :
    Bytes.CallNow counting read outcome (turn lead (3 * n + 2)) (turn lead (3 * n + 2 + 1)) := by
  rw [show 3 * n + 2 + 1 = 3 * (n + 1) by omega, turn_two, turn_zero]
  unfold Bytes.CallNow
  obtain ⟨h1, o, h2⟩ := ht n
  rw [h1, h2]
  rfl

theorem turn_endless (ht : TakesError lead read outcome) :
    ByteEndless ⟨false, false⟩ demoVendor (fun _ a => a = 0) errorsTold counting lead Prod.fst Prod.snd read outcome
      (turn lead) := by
  refine ⟨?_, fun i => ?_⟩
  · have := turn_zero lead 0
    rw [Nat.mul_zero] at this
    rw [this]
    exact .start rfl rfl rfl
  obtain ⟨n, rfl | rfl | rfl⟩ : ∃ n, i = 3 * n ∨ i = 3 * n + 1 ∨ i = 3 * n + 2 := ⟨i / 3, by omega⟩
  · refine .inl ⟨(), [[0x10, 0x01, 0x2A]], n, ⟨rfl, ?_⟩, ?_, ?_⟩
    · rw [turn_zero]
      rfl
    · simp only [List.mem_singleton, forall_eq]
      exact ⟨0x10, [0x2A], by decide, rfl⟩
    · rw [turn_zero, turn_one]
      simp [List.replicate_succ']
  · refine .inr (.inl ⟨(errorsBytes lead (n + 1), (errorsBytes lead n).length), ?_, ?_, ?_, ?_⟩)
    · rw [turn_one]
      simp only [errorsBytes_succ]
      exact List.prefix_append _ _
    · rw [turn_one]
    · rw [turn_one]
      exact List.prefix_rfl
    · rw [turn_one, show 3 * n + 1 + 1 = 3 * n + 2 by omega, turn_two]
  · refine .inr (.inr ⟨turn_called ht n, ?_⟩)
    rw [show 3 * n + 2 + 1 = 3 * (n + 1) by omega, turn_two, turn_zero]
    exact List.prefix_rfl

theorem turn_fair (ht : TakesError lead read outcome) (n : Nat) :
    BytesFair fifo n counting lead Prod.fst Prod.snd read outcome (turn lead) where
  arrives i := by
    refine ⟨3 * (i / 3 + 1), by omega, ?_⟩
    obtain ⟨n, rfl | rfl | rfl⟩ : ∃ n, i = 3 * n ∨ i = 3 * n + 1 ∨ i = 3 * n + 2 := ⟨i / 3, by omega⟩
    · rw [turn_zero, turn_zero, show 3 * n / 3 = n by omega]
      simp only [errorsBytes_succ]
      exact List.prefix_append _ _
    · rw [turn_one, turn_zero, show (3 * n + 1) / 3 = n by omega]
      exact List.prefix_rfl
    · rw [turn_two, turn_zero, show (3 * n + 2) / 3 = n by omega]
      exact List.prefix_rfl
  serves i := ⟨3 * i + 2, by omega, prompt_serves fifo_prompt n _, turn_called ht i⟩

end

theorem uart_takesError : TakesError [0x04] (Uart.read ⟨false, false⟩ demoVendor fifo) uartOutcome := by
  intro n
  obtain ⟨s', h1, -, h3⟩ := uart_progress (c := ⟨false, false⟩) (V := demoVendor) fifo_delivers fifo_prompt
    (s := (errorsBytes [0x04] (n + 1), (errorsBytes [0x04] n).length)) (code := 0x10) (ps := [0x2A]) (tail := [])
    (by decide) (by
      unfold pending
      simp only [errorsBytes_succ]
      rw [List.drop_left]
      rfl)
  have h4 := uart_quiet (c := ⟨false, false⟩) (V := demoVendor) fifo_quiet
    (errorsBytes [0x04] (n + 1), (errorsBytes [0x04] n).length)
  rw [h1] at h4 ⊢
  refine ⟨Prod.ext h4 (h3.trans ?_), ?_⟩
  · simp [errorsBytes_succ]
  · cases Event.new ⟨false, false⟩ demoVendor (frame 0x10 [0x2A]) <;> exact ⟨_, rfl⟩

theorem link_takesError : TakesError [] (EventLink.read ⟨false, false⟩ demoVendor fifo) linkOutcome := by
  intro n
  obtain ⟨s', h1, -, h3⟩ := link_progress (c := ⟨false, false⟩) (V := demoVendor) fifo_delivers fifo_prompt
    (s := (errorsBytes [] (n + 1), (errorsBytes [] n).length)) (code := 0x10) (ps := [0x2A]) (tail := [])
    (by decide) (by
      unfold pending
      simp only [errorsBytes_succ]
      rw [List.drop_left]
      rfl)
  have h4 := link_quiet (c := ⟨false, false⟩) (V := demoVendor) fifo_quiet
    (errorsBytes [] (n + 1), (errorsBytes [] n).length)
  rw [h1] at h4 ⊢
  refine ⟨Prod.ext h4 (h3.trans ?_), ?_⟩
  · simp [errorsBytes_succ]
  · cases Event.new ⟨false, false⟩ demoVendor (frame 0x10 [0x2A]) <;> exact ⟨_, rfl⟩

/-- After the error told in round `n` the application counts `n + 1` some time. -/
example (n : Nat) : ∃ j, 3 * n + 1 ≤ j ∧ (turn [0x04] j).a = n + 1 := by
  obtain ⟨j, hj, h⟩ := C121_uart_catches_up fifo_delivers (turn_endless uart_takesError) (turn_fair uart_takesError 3)
    (fun _ _ _ _ h => h.2) (3 * n + 1)
  refine ⟨j, hj, h.trans ?_⟩
  have := notTaken_boundary [0x04] (List.replicate n [0x10, 0x01, 0x2A]) [[0x10, 0x01, 0x2A]]
    (by simp only [List.mem_singleton, forall_eq]; exact ⟨0x10, [0x2A], by decide, rfl⟩)
  rw [turn_one]
  simp only [List.replicate_succ', errorsBytes]
  rw [this]
  rfl

/-- The same over an event link. -/
example (n : Nat) : ∃ j, 3 * n + 1 ≤ j ∧ (turn [] j).a = n + 1 := by
  obtain ⟨j, hj, h⟩ := C121_event_link_catches_up fifo_delivers (turn_endless link_takesError) (turn_fair link_takesError 2)
    (fun _ _ _ _ h => h.2) (3 * n + 1)
  refine ⟨j, hj, h.trans ?_⟩
  have := notTaken_boundary [] (List.replicate n [0x10, 0x01, 0x2A]) [[0x10, 0x01, 0x2A]]
    (by simp only [List.mem_singleton, forall_eq]; exact ⟨0x10, [0x2A], by decide, rfl⟩)
  rw [turn_one]
  simp only [List.replicate_succ', errorsBytes]
  rw [this]
  rfl

end Bt
