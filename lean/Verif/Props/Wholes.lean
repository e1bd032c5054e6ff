import Verif.Spec.Wholes
import Verif.Props.Streams
import Verif.Props.EventLink
import Verif.Props.Secrets

/-! # C117: reasoning with whole packets is sound and complete for streams of bytes -/

namespace Bt

open Spec

variable {X A σ ε α E : Type} {c : Cfg} {V : Vendor} {init : X → A → Prop} {env : Env X A}
  {note : A → Res V.EvErr V.Ev → A} {lead : List UInt8} {k : Controller σ E}
  {stream : σ → List UInt8} {taken : σ → Nat} {read : Ctl σ ε α} {outcome : Res ε α → Option (Res V.EvErr V.Ev)}

theorem transmitted_append (lead : List UInt8) (a b : List (List UInt8)) :
    transmitted lead (a ++ b) = transmitted lead a ++ transmitted lead b := by
  simp [transmitted]

theorem transmitted_cons (lead p : List UInt8) (b : List (List UInt8)) :
    transmitted lead (p :: b) = lead ++ p ++ transmitted lead b := by
  simp [transmitted]

theorem framed_pos {p : List UInt8} (h : Framed p) : 0 < p.length := by
  obtain ⟨a, ps, -, rfl⟩ := h
  simp [frame]

theorem notTaken_boundary (lead : List UInt8) (pre post : List (List UInt8)) (hp : ∀ p ∈ post, Framed p) :
    notTaken lead (pre ++ post) (transmitted lead pre).length = post := by
  induction pre with
  | nil =>
    cases post with
    | nil => rfl
    | cons m post =>
      have := framed_pos (hp m (by simp))
      have h0 : (transmitted lead []).length = 0 := rfl
      rw [List.nil_append, h0, notTaken, if_neg]
      rw [List.length_append]
      omega
  | cons m pre ih =>
    rw [List.cons_append, notTaken, transmitted_cons, List.length_append (as := lead ++ m),
      if_pos (Nat.le_add_right _ _), Nat.add_sub_cancel_left, ih]

/-- The bytes that have arrived are the beginning of those told, and those handed out are those of whole packets. -/
structure AtBoundary (lead : List UInt8) (stream : σ → List UInt8) (taken : σ → Nat) (s : Bytes X A σ) : Prop where
  arrived : stream s.port <+: transmitted lead s.told
  framed : ∀ p ∈ s.told, Framed p
  whole : ∃ pre post, s.told = pre ++ post ∧ taken s.port = (transmitted lead pre).length

theorem boundary_way {s : Bytes X A σ} (h : AtBoundary lead stream taken s) :
    ∃ pre post, s.told = pre ++ post ∧ taken s.port = (transmitted lead pre).length ∧
      notTaken lead s.told (taken s.port) = post := by
  obtain ⟨pre, post, h1, h2⟩ := h.whole
  refine ⟨pre, post, h1, h2, ?_⟩
  rw [h1, h2]
  exact notTaken_boundary lead pre post fun m hm => h.framed m (by rw [h1]; simp [hm])

theorem byte_run (hm : Steps stream taken read (lead ++ ·) outcome (Event.new c V)) {s : Bytes X A σ}
    (h : ByteRun c V init env note lead stream taken read outcome s) :
    AtBoundary lead stream taken s ∧ PacketRun c V init env note (s.world lead taken) := by
  induction h with
  | start hi h1 h2 =>
    exact ⟨⟨by simp [h1], by simp, [], [], rfl, by simp [h2, transmitted]⟩, .start hi⟩
  | @acts s x new a _ he hf ih =>
    obtain ⟨ha, hr⟩ := ih
    obtain ⟨pre, post, h1, h2, h3⟩ := boundary_way ha
    have hframed : ∀ p ∈ s.told ++ new, Framed p := fun p hp => by
      rcases List.mem_append.mp hp with h | h
      · exact ha.framed p h
      · exact hf p h
    refine ⟨⟨?_, hframed, pre, post ++ new, by simp [h1], h2⟩, ?_⟩
    · simp only
      rw [transmitted_append]
      exact ha.arrived.trans (List.prefix_append _ _)
    · have hu : notTaken lead (s.told ++ new) (taken s.port) = notTaken lead s.told (taken s.port) ++ new := by
        rw [h3, h2, h1, List.append_assoc]
        exact notTaken_boundary lead pre (post ++ new) fun p hp => hframed p (by rw [h1]; simp_all)
      have := PacketRun.acts hr he hf
      simp only [Bytes.world] at this ⊢
      rw [hu]
      exact this
  | @arrives s port _ hp ht hb ih =>
    obtain ⟨ha, hr⟩ := ih
    obtain ⟨pre, post, h1, h2, h3⟩ := boundary_way ha
    refine ⟨⟨hb, ha.framed, pre, post, h1, by simp only; rw [ht, h2]⟩, ?_⟩
    simp only [Bytes.world] at hr ⊢
    rw [ht]
    exact hr
  | @calls s r port _ hc hb ih =>
    obtain ⟨ha, hr⟩ := ih
    obtain ⟨pre, post, h1, h2, h3⟩ := boundary_way ha
    obtain ⟨-, ⟨ht, ho⟩ | ⟨p, hp, ht, hd, ho⟩⟩ := hm _ _ _ hc
    · refine ⟨⟨hb, ha.framed, pre, post, h1, by simp only; rw [ht, h2]⟩, ?_⟩
      simp only [Bytes.world, ho] at hr ⊢
      rw [ht]
      exact hr
    · obtain ⟨u, hu⟩ := hb
      have h0 := framed_pos hp
      have hle : taken s.port ≤ (stream port).length := by
        have := congrArg List.length hd
        simp only [List.length_drop, List.length_append] at this
        omega
      have hpost : lead ++ p ++ ((stream port).drop (taken port) ++ u) = transmitted lead post := by
        have := congrArg (List.drop (taken s.port)) hu
        rw [List.drop_append_of_le_length hle, hd, h1, transmitted_append, h2, List.drop_left, List.append_assoc] at this
        exact this
      cases post with
      | nil => exact absurd hpost.symm (by
          intro h
          have := congrArg List.length h
          simp [transmitted] at this
          omega)
      | cons m post =>
        rw [transmitted_cons, List.append_assoc, List.append_assoc] at hpost
        obtain ⟨rfl, -⟩ := framed_prefix hp (ha.framed m (by rw [h1]; simp)) (List.append_cancel_left hpost)
        have htk : taken port = (transmitted lead (pre ++ [p])).length := by
          rw [ht, h2, transmitted_append, transmitted_cons]
          simp [transmitted]
        refine ⟨⟨⟨u, hu⟩, ha.framed, pre ++ [p], post, by simp [h1], htk⟩, ?_⟩
        have hun : notTaken lead s.told (taken port) = post := by
          rw [h1, htk, show pre ++ p :: post = (pre ++ [p]) ++ post by simp]
          exact notTaken_boundary lead _ post fun x hx => ha.framed x (by rw [h1]; simp [hx])
        simp only [Bytes.world, h3] at hr
        have := hr.reads
        simp only [Bytes.world, ho, hun]
        exact this

/-- **C117** (`uart`). Every state that can be reached with bytes can be reached with whole packets, so what is proved of all the
latter holds of all the former. -/
theorem C117_uart (hd : Delivers k stream taken) {s : Bytes X A σ}
    (h : ByteRun c V init env note [0x04] stream taken (Uart.read c V k) uartOutcome s) :
    PacketRun c V init env note (s.world [0x04] taken) :=
  (byte_run (uart_steps hd) h).2

/-- **C117** (`event_link`). The same without packet indicators. -/
theorem C117_event_link (hd : Delivers k stream taken) {s : Bytes X A σ}
    (h : ByteRun c V init env note [] stream taken (EventLink.read c V k) linkOutcome s) :
    PacketRun c V init env note (s.world [] taken) :=
  (byte_run (link_steps hd) h).2

/-! ## The other direction -/

theorem fifo_peek_state (n : Nat) (s : Fifo) : fifo.peek n s = ((fifo.peek n s).1, s) := by
  simp only [fifo]
  split <;> rfl

theorem fifo_readInto_stream (n : Nat) (s s' : Fifo) (r : Res (Nb Unit) (Arr n)) (h : fifo.readInto n s = (r, s')) :
    s'.1 = s.1 := by
  have := (fifo_quiet.readInto n s).1
  rwa [h] at this

theorem fifo_uart_stream (s : Fifo) : (Uart.read c V fifo s).2.1 = s.1 := by
  rw [uartRead_eq, fifo_peek_state 0]
  cases (fifo.peek 0 s).1 with
  | panic => rfl
  | err e => rfl
  | ok x =>
    simp only
    split
    · rw [fifo_peek_state 2]
      cases (fifo.peek 2 s).1 with
      | panic => rfl
      | err e => rfl
      | ok l =>
        simp only
        split
        all_goals
          rename_i h
          exact fifo_readInto_stream _ _ _ _ h
    · rfl

theorem fifo_link_stream (s : Fifo) : (EventLink.read c V fifo s).2.1 = s.1 := by
  rw [linkRead_eq, fifo_peek_state 1]
  cases (fifo.peek 1 s).1 with
  | panic => rfl
  | err e => rfl
  | ok l =>
    simp only
    split
    all_goals
      rename_i h
      exact fifo_readInto_stream _ _ _ _ h

theorem fifo_run {read : Ctl Fifo ε α} (hm : Steps Prod.fst Prod.snd read (lead ++ ·) outcome (Event.new c V))
    (hread : ∀ (st : List UInt8) (n : Nat) (p tail : List UInt8), Framed p → st.drop n = lead ++ p ++ tail →
      ∃ r, read (st, n) = (r, (st, n + (lead ++ p).length)) ∧ outcome r = some (Event.new c V p))
    {w : World X A} (h : PacketRun c V init env note w) :
    ∃ s : Bytes X A Fifo, ByteRun c V init env note lead Prod.fst Prod.snd read outcome s ∧
      s.world lead Prod.snd = w := by
  induction h with
  | start hi => exact ⟨⟨_, [], ([], 0), _⟩, .start hi rfl rfl, rfl⟩
  | @acts w x new a _ he hf ih =>
    obtain ⟨s, hs, rfl⟩ := ih
    refine ⟨_, hs.acts he hf, ?_⟩
    obtain ⟨ha, -⟩ := byte_run hm (hs.acts he hf)
    obtain ⟨hb, -⟩ := byte_run hm hs
    obtain ⟨pre, post, h1, h2, h3⟩ := boundary_way hb
    simp only [Bytes.world, World.mk.injEq, true_and, and_true]
    rw [h3, h2, h1, List.append_assoc]
    exact notTaken_boundary lead pre (post ++ new) fun p hp => ha.framed p (by simp only; rw [h1]; simp_all)
  | @reads x p rest a _ ih =>
    obtain ⟨s, hs, hw⟩ := ih
    obtain ⟨hb, -⟩ := byte_run hm hs
    obtain ⟨pre, post, h1, h2, h3⟩ := boundary_way hb
    simp only [Bytes.world, World.mk.injEq, h3] at hw
    obtain ⟨rfl, rfl, rfl⟩ := hw
    -- everything arrives, and then the first packet is read
    have ha : ByteRun c V init env note lead Prod.fst Prod.snd read outcome
        ⟨s.x, s.told, (transmitted lead s.told, s.port.2), s.a⟩ :=
      hs.arrives hb.arrived rfl List.prefix_rfl
    have hdrop : (transmitted lead s.told).drop s.port.2 = lead ++ p ++ transmitted lead rest := by
      rw [h1, transmitted_append, show s.port.2 = _ from h2, List.drop_left, transmitted_cons]
    obtain ⟨r, hr, ho⟩ := hread _ _ p _ (hb.framed p (by rw [h1]; simp)) hdrop
    have hc := ha.calls hr List.prefix_rfl
    refine ⟨_, hc, ?_⟩
    have htk : s.port.2 + (lead ++ p).length = (transmitted lead (pre ++ [p])).length := by
      rw [show s.port.2 = _ from h2, transmitted_append, transmitted_cons]
      simp [transmitted]
    simp only [Bytes.world, ho, World.mk.injEq, true_and]
    refine ⟨?_, rfl⟩
    rw [htk, h1, show pre ++ p :: rest = (pre ++ [p]) ++ rest by simp]
    exact notTaken_boundary lead _ rest fun x hx => hb.framed x (by rw [h1]; simp [hx])

/-- **C117** (`uart`). Conversely every state that can be reached with whole packets can be reached with bytes: there is no
more to be proved of the latter than of the former. -/
theorem C117_uart_complete {w : World X A} (h : PacketRun c V init env note w) :
    ∃ s : Bytes X A Fifo, ByteRun c V init env note [0x04] Prod.fst Prod.snd (Uart.read c V fifo) uartOutcome s ∧
      s.world [0x04] Prod.snd = w := by
  refine fifo_run (uart_steps fifo_delivers) ?_ h
  rintro st n p tail ⟨code, ps, hl, rfl⟩ hd
  obtain ⟨⟨st', n'⟩, h1, -, h3⟩ := uart_progress (c := c) (V := V) fifo_delivers fifo_prompt (s := (st, n)) hl hd
  have h2 : st' = st := by
    have := fifo_uart_stream (c := c) (V := V) (st, n)
    rw [h1] at this
    exact this
  simp only at h3
  subst h2 h3
  have hlen : 3 + ps.length = ([0x04] ++ frame code ps).length := by
    simp [frame]
    omega
  rw [hlen] at h1
  refine ⟨_, h1, ?_⟩
  cases Event.new c V (frame code ps) <;> rfl

/-- **C117** (`event_link`). The same without packet indicators. -/
theorem C117_event_link_complete {w : World X A} (h : PacketRun c V init env note w) :
    ∃ s : Bytes X A Fifo, ByteRun c V init env note [] Prod.fst Prod.snd (EventLink.read c V fifo) linkOutcome s ∧
      s.world [] Prod.snd = w := by
  refine fifo_run (link_steps fifo_delivers) ?_ h
  rintro st n p tail ⟨code, ps, hl, rfl⟩ hd
  obtain ⟨⟨st', n'⟩, h1, -, h3⟩ := link_progress (c := c) (V := V) fifo_delivers fifo_prompt (s := (st, n)) hl hd
  have h2 : st' = st := by
    have := fifo_link_stream (c := c) (V := V) (st, n)
    rw [h1] at this
    exact this
  simp only at h3
  subst h2 h3
  have hlen : 2 + ps.length = (([] : List UInt8) ++ frame code ps).length := by
    simp [frame]
    omega
  rw [hlen] at h1
  refine ⟨_, h1, ?_⟩
  cases Event.new c V (frame code ps) <;> rfl

/-! ## Secrets over bytes -/

theorem secrets_run {fresh steady known : Prop} {w : World SecretWorld Ledger}
    (h : PacketRun c V (fun x a => x = (fun _ => false, fun _ => false, []) ∧ a = {}) (secretEnv c V fresh steady known)
      Ledger.noteOutcome w) : Secrets.Reached c V fresh steady known w.secrets := by
  induction h with
  | start hi =>
    obtain ⟨rfl, rfl⟩ := hi
    exact .start
  | acts _ he _ ih => exact ih.step he
  | reads _ ih => exact ih.step (.reads _ _ rfl)

/-- **C117**, for C116: no secret is sent in the clear if the events come over a UART, in any pieces and at any time. -/
theorem C117_no_leak_uart (hd : Delivers k stream taken) {s : Bytes SecretWorld Ledger σ}
    (h : ByteRun c V (fun x a => x = (fun _ => false, fun _ => false, []) ∧ a = {}) (secretEnv c V True True True)
      Ledger.noteOutcome [0x04] stream taken (Uart.read c V k) uartOutcome s) : ∀ y ∈ s.x.2.2, y.2 = true :=
  C116_no_leak (secrets_run (C117_uart hd h))

/-- **C117**, for C116, over an event link. -/
theorem C117_no_leak_event_link (hd : Delivers k stream taken) {s : Bytes SecretWorld Ledger σ}
    (h : ByteRun c V (fun x a => x = (fun _ => false, fun _ => false, []) ∧ a = {}) (secretEnv c V True True True)
      Ledger.noteOutcome [] stream taken (EventLink.read c V k) linkOutcome s) : ∀ y ∈ s.x.2.2, y.2 = true :=
  C116_no_leak (secrets_run (C117_event_link hd h))

/-- A secret is sent on an encrypted connection, when the two events have been read. -/
example : ∃ s : Bytes SecretWorld Ledger Fifo,
    ByteRun ⟨false, false⟩ demoVendor (fun x a => x = (fun _ => false, fun _ => false, []) ∧ a = {})
      (secretEnv ⟨false, false⟩ demoVendor True True True) Ledger.noteOutcome [0x04] Prod.fst Prod.snd
      (Uart.read ⟨false, false⟩ demoVendor fifo) uartOutcome s ∧ s.x.2.2 = [(1, true)] := by
  let on : UInt16 → Bool := put (fun _ => false) 1 true
  let p1 := frame 0x3E (0x01 :: 0 :: le16 1 ++ [])
  let p2 := frame 0x08 (0 :: le16 1 ++ [1])
  let Run := PacketRun ⟨false, false⟩ demoVendor (fun x a => x = (fun _ => false, fun _ => false, []) ∧ a = {})
      (secretEnv ⟨false, false⟩ demoVendor True True True) Ledger.noteOutcome
  have r0 : Run ⟨(fun _ => false, fun _ => false, []), [], {}⟩ := .start ⟨rfl, rfl⟩
  have r1 : Run ⟨(on, fun _ => false, []), [p1], {}⟩ := .acts (new := [p1]) r0
    (Secrets.Step.opens 1 [] rfl (by simp [World.secrets])) (by
      simp only [List.mem_singleton, forall_eq]
      exact ⟨_, _, by simp, rfl⟩)
  have r2 : Run ⟨(on, on, []), [p1, p2], {}⟩ := .acts (new := [p2]) r1
    (Secrets.Step.encrypts 1 1 rfl (.inl rfl)) (by
      simp only [List.mem_singleton, forall_eq]
      exact ⟨_, _, by simp, rfl⟩)
  have hL := believes_on (c := ⟨false, false⟩) (V := demoVendor) (change_accepted 1 (e := 1) (by decide))
    (.change (.inl rfl)) (({} : Ledger).noteOutcome (Event.new ⟨false, false⟩ demoVendor p1))
  have r3 : Run ⟨(on, on, [(1, true)]), [], _⟩ := .acts (new := []) r2.reads.reads (Secrets.Step.sends 1 hL) (by simp)
  obtain ⟨s, h1, h2⟩ := C117_uart_complete r3
  exact ⟨s, h1, by rw [show s.x = _ from congrArg World.x h2]⟩

/-- A run with two packets, one of which is read. The application keeps everything that it has read. -/
example : ∃ s : Bytes Unit (List (Res demoVendor.EvErr demoVendor.Ev)) Fifo,
    ByteRun ⟨false, false⟩ demoVendor (fun _ a => a = []) (fun w _ new a => new = [frame 0x10 [0x2A]] ∧ a = w.a)
      (fun a r => r :: a) [0x04] Prod.fst Prod.snd (Uart.read ⟨false, false⟩ demoVendor fifo) uartOutcome s ∧
    s.world [0x04] Prod.snd = ⟨(), [frame 0x10 [0x2A]], [.ok (.hardwareError ⟨0x2A⟩)]⟩ := by
  have hf : ∀ p ∈ [frame 0x10 [0x2A]], Framed p := by
    simp only [List.mem_singleton, forall_eq]
    exact ⟨0x10, [0x2A], by decide, rfl⟩
  refine C117_uart_complete ?_
  have r0 : PacketRun ⟨false, false⟩ demoVendor (fun _ a => a = [])
      (fun (w : World Unit (List (Res demoVendor.EvErr demoVendor.Ev))) _ new a => new = [frame 0x10 [0x2A]] ∧ a = w.a)
      (fun a r => r :: a) ⟨(), [], []⟩ := .start rfl
  have r1 := PacketRun.acts (x := ()) r0 ⟨rfl, rfl⟩ hf
  have r2 := PacketRun.acts (x := ()) r1 ⟨rfl, rfl⟩ hf
  exact r2.reads

end Bt
