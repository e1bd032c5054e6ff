import Verif.Props.SecretsForever

/-! # C123: an application that has caught up does not waver -/

namespace Bt

open Spec

variable {σ ε α E : Type} {c : Cfg} {V : Vendor} {k : Controller σ E}
  {stream : σ → List UInt8} {taken : σ → Nat}

/-- The packet says that it is not so that the encryption of connection `g` is `b`. -/
def Denies (b : Bool) (g : UInt16) (p : List UInt8) : Prop := if b then Unencrypts g p else Encrypts g p

/-- The first of the packets on their way, when they have been read, make the application believe that the encryption of
connection `g` is `b`; none of the others says that it is not. -/
def Settling (c : Cfg) (V : Vendor) (b : Bool) (g : UInt16) (old : List (List UInt8)) (w : World SecretWorld Ledger) : Prop :=
  ∃ new, w.way = old ++ new ∧ (∀ p ∈ new, ¬ Denies b g p) ∧
    (old.foldl (fun L p => L.noteOutcome (Event.new c V p)) w.a).encrypted g.toNat = b

/-- A packet that does not say the opposite leaves the belief. -/
theorem believes_still {b : Bool} {g : UInt16} {p : List UInt8} (hp : ¬ Denies b g p) {L : Ledger}
    (hL : L.encrypted g.toNat = b) : (L.noteOutcome (Event.new c V p)).encrypted g.toNat = b := by
  by_cases ha : Accepted c V p
  · cases b with
    | true =>
      by_cases he : Encrypts g p
      · exact believes_on ha he L
      · exact (believes_same he hp L).trans hL
    | false =>
      by_cases he : Unencrypts g p
      · exact believes_off ha he L
      · exact (believes_same hp he L).trans hL
  · exact (rejected_note ha L).trans hL

theorem change_not_off {g : UInt16} {e : UInt8} (he : e = 1 ∨ e = 2) : ¬ Unencrypts g (frame 0x08 (0 :: le16 g ++ [e])) := by
  intro h
  generalize hq : frame 0x08 (0 :: le16 g ++ [e]) = q at h
  cases h with
  | change =>
    have : e = 0 := by simpa [frame, le16] using hq
    subst this
    rcases he with h | h <;> exact absurd h (by decide)
  | disconnection => simp [frame] at hq
  | connection => simp [frame] at hq
  | leConnection => simp [frame] at hq

theorem change_not_on {g : UInt16} : ¬ Encrypts g (frame 0x08 (0 :: le16 g ++ [0])) := by
  intro h
  generalize hq : frame 0x08 (0 :: le16 g ++ [0]) = q at h
  cases h with
  | @change e he =>
    have : e = 0 := by simpa [frame, le16, eq_comm] using hq
    subst this
    rcases he with h | h <;> exact absurd h (by decide)
  | connection => simp [frame] at hq

theorem end_not_on {g : UInt16} {r : UInt8} : ¬ Encrypts g (endPacket g r) := by
  intro h
  generalize hq : endPacket g r = q at h
  cases h <;> simp [endPacket, frame] at hq

theorem opening_not_on {g : UInt16} {rest : List UInt8} : ¬ Encrypts g (frame 0x3E (0x01 :: 0 :: le16 g ++ rest)) := by
  intro h
  generalize hq : frame 0x3E (0x01 :: 0 :: le16 g ++ rest) = q at h
  cases h <;> simp [frame] at hq

theorem other_denies {b : Bool} {g h : UInt16} {p : List UInt8} (hp : Encrypts h p ∨ Unencrypts h p) (hg : g ≠ h) :
    ¬ Denies b g p := by
  cases b with
  | true => exact (other_handle hp hg).2
  | false => exact (other_handle hp hg).1

/-- Nothing that happens while the encryption of connection `g` stays as it is makes the controller say the opposite. -/
theorem told_not_denied {fresh steady known : Prop} {s t : Secrets} {b : Bool} {g : UInt16} {new : List (List UInt8)}
    (h : Secrets.Step c V fresh steady known s t) (hw : t.way = s.way ++ new) (hshut : s.enc g = true → s.isOpen g = true)
    (h1 : s.enc g = b) (h2 : t.enc g = b) : ∀ p ∈ new, ¬ Denies b g p := by
  have one {q : List UInt8} (hq : s.way ++ [q] = s.way ++ new) (h : ¬ Denies b g q) : ∀ p ∈ new, ¬ Denies b g p := by
    rw [← List.append_cancel_left hq]
    simpa using h
  cases h with
  | sends h => simp [show new = [] by simpa using hw]
  | opens h rest ho =>
    refine one hw ?_
    by_cases hg : g = h
    · subst hg
      cases b with
      | true =>
        rw [hshut h1] at ho
        cases ho
      | false => exact opening_not_on
    · exact other_denies (.inr .leConnection) hg
  | encrypts h e _ he =>
    refine one hw ?_
    by_cases hg : g = h
    · subst hg
      cases b with
      | true => exact change_not_off he
      | false => simp [put] at h2
    · exact other_denies (.inl (.change he)) hg
  | unencrypts h =>
    refine one hw ?_
    by_cases hg : g = h
    · subst hg
      cases b with
      | true => simp [put] at h2
      | false => exact change_not_on
    · exact other_denies (.inr .change) hg
  | ends h reason =>
    refine one hw ?_
    by_cases hg : g = h
    · subst hg
      cases b with
      | true => simp [put] at h2
      | false => exact end_not_on
    · exact other_denies (.inr (end_unencrypts h reason)) hg
  | tells packet hp =>
    refine one hw ?_
    cases b with
    | true => exact (hp g).2
    | false => exact (hp g).1
  | reads p rest hp =>
    exfalso
    have e1 := congrArg List.length hw
    have e2 := congrArg List.length hp
    simp at e1 e2
    omega

section
variable {fresh steady : Prop} {w : Nat → World SecretWorld Ledger}

theorem packet_endless_run {X A : Type} {init : X → A → Prop} {env : Env X A} {note : A → Res V.EvErr V.Ev → A}
    {w : Nat → World X A} (h : PacketEndless c V init env note w) (i : Nat) : PacketRun c V init env note (w i) := by
  induction i with
  | zero => exact h.start
  | succ i ih =>
    rcases h.step i with ⟨x, new, a, h1, h2, h3⟩ | ⟨p, rest, h1, h2⟩ | h1
    · rw [h3]
      exact .acts ih h1 h2
    · generalize w i = s at ih h1 h2
      obtain ⟨x, way, a⟩ := s
      cases h1
      rw [h2]
      exact .reads ih
    · rw [h1]
      exact ih

theorem settling_step (h : PacketEndless c V noSecrets (secretEnv c V fresh steady True) Ledger.noteOutcome w) {b : Bool} {g : UInt16}
    {i : Nat} (h1 : (w i).x.2.1 g = b) (h2 : (w (i + 1)).x.2.1 g = b) {old : List (List UInt8)}
    (hs : Settling c V b g old (w i)) :
    Settling c V b g old (w (i + 1)) ∧ ¬ World.ReadNow c V Ledger.noteOutcome (w i) (w (i + 1)) ∨
      Settling c V b g old.tail (w (i + 1)) := by
  by_cases hr : World.ReadNow c V Ledger.noteOutcome (w i) (w (i + 1))
  · right
    obtain ⟨new, e1, e2, e3⟩ := hs
    obtain ⟨p, rest, e4, e5⟩ := hr
    rw [e5]
    cases old with
    | nil =>
      rw [e4] at e1
      simp only [List.nil_append] at e1
      rw [← e1] at e2
      exact ⟨rest, rfl, fun q hq => e2 q (List.mem_cons_of_mem _ hq), believes_still (e2 p List.mem_cons_self) e3⟩
    | cons q old =>
      rw [e4] at e1
      simp only [List.cons_append, List.cons.injEq] at e1
      obtain ⟨rfl, e1⟩ := e1
      exact ⟨new, e1, e2, e3⟩
  · left
    refine ⟨?_, hr⟩
    rcases h.step i with ⟨x, more, a, e1, -, e3⟩ | e | e
    · have hc := coherent_reached trivial (secrets_run (packet_endless_run h i))
      have ha := secretEnv_same _ _ _ _ e1
      rw [e3] at h2
      have hn := told_not_denied e1 rfl (hc.shut g) h1 h2
      obtain ⟨new, f1, f2, f3⟩ := hs
      rw [e3, ha]
      refine ⟨new ++ more, by simp [f1], fun p hp => ?_, f3⟩
      rcases List.mem_append.mp hp with hp | hp
      · exact f2 p hp
      · exact hn p hp
    · exact absurd e hr
    · rw [e]
      exact hs

/-- Belief that has settled remains. -/
theorem settled_stays (h : PacketEndless c V noSecrets (secretEnv c V fresh steady True) Ledger.noteOutcome w) {b : Bool} {g : UInt16}
    {i : Nat} (hi : ∀ j, i ≤ j → (w j).x.2.1 g = b) (hs : Settling c V b g [] (w i)) (d : Nat) :
    Settling c V b g [] (w (i + d)) := by
  induction d with
  | zero => exact hs
  | succ d ih =>
    rcases settling_step h (hi (i + d) (by omega)) (hi (i + d + 1) (by omega)) ih with e | e
    · exact e.1
    · exact e

/-- Until the next packet is read, or as long as none is. -/
theorem settling_on (h : PacketEndless c V noSecrets (secretEnv c V fresh steady True) Ledger.noteOutcome w) {b : Bool} {g : UInt16}
    (old : List (List UInt8)) (d : Nat) : ∀ i, (∀ j, i ≤ j → (w j).x.2.1 g = b) → Settling c V b g old (w i) →
      World.ReadNow c V Ledger.noteOutcome (w (i + d)) (w (i + d + 1)) → ∃ j, i ≤ j ∧ Settling c V b g old.tail (w j) := by
  induction d with
  | zero =>
    intro i hi hs hr
    rcases settling_step h (hi i (Nat.le_refl i)) (hi (i + 1) (by omega)) hs with e | e
    · exact absurd hr e.2
    · exact ⟨i + 1, by omega, e⟩
  | succ d ih =>
    intro i hi hs hr
    rcases settling_step h (hi i (Nat.le_refl i)) (hi (i + 1) (by omega)) hs with e | e
    · obtain ⟨j, hj, hsj⟩ := ih (i + 1) (fun j hj => hi j (by omega)) e.1 (by
        rw [show i + 1 + d = i + (d + 1) by omega]
        exact hr)
      exact ⟨j, by omega, hsj⟩
    · exact ⟨i + 1, by omega, e⟩

theorem belief_settles (h : PacketEndless c V noSecrets (secretEnv c V fresh steady True) Ledger.noteOutcome w)
    (hr : PacketsRead c V Ledger.noteOutcome w) {b : Bool} {g : UInt16} (n : Nat) : ∀ (old : List (List UInt8)) (i : Nat),
      old.length = n → (∀ j, i ≤ j → (w j).x.2.1 g = b) → Settling c V b g old (w i) →
      ∃ j, i ≤ j ∧ Settling c V b g [] (w j) := by
  induction n with
  | zero =>
    intro old i hn _ hs
    rw [List.length_eq_zero_iff.mp hn] at hs
    exact ⟨i, Nat.le_refl i, hs⟩
  | succ n ih =>
    intro old i hn hi hs
    have hne : (w i).way ≠ [] := by
      obtain ⟨new, e, -⟩ := hs
      intro h0
      rw [e, List.append_eq_nil_iff] at h0
      rw [h0.1] at hn
      simp at hn
    obtain ⟨l, hl, hrl⟩ := hr i hne
    obtain ⟨d, rfl⟩ := Nat.exists_eq_add_of_le hl
    obtain ⟨j, hj, hsj⟩ := settling_on h old d i hi hs hrl
    obtain ⟨m, hm, hsm⟩ := ih old.tail j (by simp [hn]) (fun m hm => hi m (by omega)) hsj
    exact ⟨m, by omega, hsm⟩

/-- **C123** (whole packets). If a connection is encrypted from some time on, then from some time on the application believes
so at every moment; and the same if it is not encrypted from some time on. -/
theorem C123_packets (h : PacketEndless c V noSecrets (secretEnv c V fresh steady True) Ledger.noteOutcome w)
    (hr : PacketsRead c V Ledger.noteOutcome w) (b : Bool) (g : UInt16) (i : Nat) (hi : ∀ j, i ≤ j → (w j).x.2.1 g = b) :
    ∃ n, ∀ j, n ≤ j → (w j).a.encrypted g.toNat = b := by
  have h0 : Settling c V b g (w i).way (w i) := by
    refine ⟨[], by simp, by simp, ?_⟩
    have := C116_catches_up (secrets_run (packet_endless_run h i)) g
    exact this.trans (hi i (Nat.le_refl i))
  obtain ⟨n, hn, hsn⟩ := belief_settles h hr (w i).way.length (w i).way i rfl hi h0
  refine ⟨n, fun j hj => ?_⟩
  obtain ⟨d, rfl⟩ := Nat.exists_eq_add_of_le hj
  obtain ⟨new, -, -, e⟩ := settled_stays h (fun j hj => hi j (by omega)) hsn d
  exact e

end

section
variable {fresh steady : Prop} {s : Nat → Bytes SecretWorld Ledger σ}

/-- **C123** (`uart`). In an endless execution over a fair transport in which a connection stays encrypted from some time on,
the application believes so from some time on, without wavering; and the same if it stays unencrypted. -/
theorem C123_uart (hd : Delivers k stream taken)
    (h : ByteEndless c V noSecrets (secretEnv c V fresh steady True) Ledger.noteOutcome [0x04] stream taken (Uart.read c V k)
      uartOutcome s)
    (hf : BytesFair k 3 Ledger.noteOutcome [0x04] stream taken (Uart.read c V k) uartOutcome s) (b : Bool) (g : UInt16) (i : Nat)
    (hi : ∀ j, i ≤ j → (s j).x.2.1 g = b) : ∃ n, ∀ j, n ≤ j → (s j).a.encrypted g.toNat = b :=
  C123_packets (C121_uart hd h).1 ((C121_uart hd h).2 hf) b g i hi

/-- **C123** (`event_link`). The same without packet indicators. -/
theorem C123_event_link (hd : Delivers k stream taken)
    (h : ByteEndless c V noSecrets (secretEnv c V fresh steady True) Ledger.noteOutcome [] stream taken (EventLink.read c V k)
      linkOutcome s)
    (hf : BytesFair k 2 Ledger.noteOutcome [] stream taken (EventLink.read c V k) linkOutcome s) (b : Bool) (g : UInt16) (i : Nat)
    (hi : ∀ j, i ≤ j → (s j).x.2.1 g = b) : ∃ n, ∀ j, n ≤ j → (s j).a.encrypted g.toNat = b :=
  C123_packets (C121_event_link hd h).1 ((C121_event_link hd h).2 hf) b g i hi

end

/-- An endless execution over a UART in which the application does not know at first. -/
example : ∃ s : Nat → Bytes SecretWorld Ledger Fifo, (s 0).a = {} ∧ ∃ n, ∀ j, n ≤ j → (s j).a.encrypted 1 = true := by
  obtain ⟨s, h1, h2⟩ := C117_uart_complete (encrypted_unread True)
  have hq (p : Fifo) := uart_quiet (c := ⟨false, false⟩) (V := demoVendor) fifo_quiet p
  refine ⟨readsOn Ledger.noteOutcome [0x04] (Uart.read ⟨false, false⟩ demoVendor fifo) uartOutcome s,
    congrArg World.a h2, ?_⟩
  refine C123_uart fifo_delivers (readsOn_endless (uart_steps fifo_delivers) hq h1) (readsOn_fair hq 3 s) true 1 0
    (fun j _ => ?_)
  rw [(readsOn_told hq s j).2.2, show s.x = _ from congrArg World.x h2]
  rfl

/-- And over an event link. -/
example : ∃ s : Nat → Bytes SecretWorld Ledger Fifo, (s 0).a = {} ∧ ∃ n, ∀ j, n ≤ j → (s j).a.encrypted 1 = true := by
  obtain ⟨s, h1, h2⟩ := C117_event_link_complete (encrypted_unread True)
  have hq (p : Fifo) := link_quiet (c := ⟨false, false⟩) (V := demoVendor) fifo_quiet p
  refine ⟨readsOn Ledger.noteOutcome [] (EventLink.read ⟨false, false⟩ demoVendor fifo) linkOutcome s,
    congrArg World.a h2, ?_⟩
  refine C123_event_link fifo_delivers (readsOn_endless (link_steps fifo_delivers) hq h1) (readsOn_fair hq 2 s) true 1 0
    (fun j _ => ?_)
  rw [(readsOn_told hq s j).2.2, show s.x = _ from congrArg World.x h2]
  rfl

/-- With whole packets: connection 1 is opened and encrypted, the application has read both, and the connection ends. -/
theorem ended_unread (known : Prop) (r : UInt8) (hr : known → ∃ st, StatusByte ⟨false, false⟩ demoVendor r st) :
    ∃ a : Ledger, a.encrypted 1 = true ∧
      PacketRun ⟨false, false⟩ demoVendor noSecrets (secretEnv ⟨false, false⟩ demoVendor True True known)
        Ledger.noteOutcome ⟨(put (put (fun _ => false) 1 true) 1 false, put (put (fun _ => false) 1 true) 1 false, []),
          [endPacket 1 r], a⟩ := by
  have r2 := PacketRun.reads (PacketRun.reads (encrypted_unread known))
  refine ⟨_, ?_, .acts (new := [endPacket 1 r]) r2 (Secrets.Step.ends 1 r rfl hr) ?_⟩
  · exact believes_on (c := ⟨false, false⟩) (h := 1) (change_accepted 1 (by decide)) (.change (.inl rfl)) _
  · simp only [List.mem_singleton, forall_eq]
    exact ⟨_, _, by simp, rfl⟩

/-- The application believes wrongly at first, and rightly from some time on. -/
example : ∃ s : Nat → Bytes SecretWorld Ledger Fifo, (s 0).a.encrypted 1 = true ∧
    ∃ n, ∀ j, n ≤ j → (s j).a.encrypted 1 = false := by
  obtain ⟨a, ha, h⟩ := ended_unread True 0x13 fun _ => ⟨_, rfl⟩
  obtain ⟨s, h1, h2⟩ := C117_uart_complete h
  have hq (p : Fifo) := uart_quiet (c := ⟨false, false⟩) (V := demoVendor) fifo_quiet p
  refine ⟨readsOn Ledger.noteOutcome [0x04] (Uart.read ⟨false, false⟩ demoVendor fifo) uartOutcome s, ?_, ?_⟩
  · rw [show (readsOn Ledger.noteOutcome [0x04] (Uart.read ⟨false, false⟩ demoVendor fifo) uartOutcome s 0).a = a from
      congrArg World.a h2]
    exact ha
  refine C123_uart fifo_delivers (readsOn_endless (uart_steps fifo_delivers) hq h1) (readsOn_fair hq 3 s) false 1 0
    (fun j _ => ?_)
  rw [(readsOn_told hq s j).2.2, show s.x = _ from congrArg World.x h2]
  rfl

/-- If nothing but packets that the crate rejects is on its way and nothing more is told, the belief stays as it is. -/
theorem rejected_forever {fresh steady known : Prop} {read : Ctl Fifo ε α} {outcome : Res ε α → Option (Res V.EvErr V.Ev)}
    {lead : List UInt8} (hm : Steps Prod.fst Prod.snd read (lead ++ ·) outcome (Event.new c V))
    (hq : ∀ p, (read p).2.1 = p.1) {s : Bytes SecretWorld Ledger Fifo} {b : Bool} {g : UInt16}
    (h : ByteRun c V noSecrets (secretEnv c V fresh steady known) Ledger.noteOutcome lead Prod.fst Prod.snd read outcome s)
    (hw : ∀ p ∈ (s.world lead Prod.snd).way, ¬ Accepted c V p) (hb : s.a.encrypted g.toNat = b) (i : Nat) :
    (readsOn Ledger.noteOutcome lead read outcome s i).a.encrypted g.toNat = b := by
  have he := readsOn_endless hm hq h
  suffices hs : (∀ p ∈ ((readsOn Ledger.noteOutcome lead read outcome s i).world lead Prod.snd).way, ¬ Accepted c V p) ∧
      (readsOn Ledger.noteOutcome lead read outcome s i).a.encrypted g.toNat = b from hs.2
  induction i with
  | zero => exact ⟨hw, hb⟩
  | succ i ih =>
    have h0 := (readsOn_told (note := Ledger.noteOutcome) (lead := lead) (outcome := outcome) hq s i).1
    have h1 := (readsOn_told (note := Ledger.noteOutcome) (lead := lead) (outcome := outcome) hq s (i + 1)).1
    obtain ⟨-, h2⟩ := byte_step hm he i
    generalize readsOn Ledger.noteOutcome lead read outcome s (i + 1) = t at h1 h2 ⊢
    generalize readsOn Ledger.noteOutcome lead read outcome s i = u at ih h0 h2
    rcases h2 with ⟨p, rest, e1, e2⟩ | ⟨e1, e2⟩
    · have ea : t.a = u.a.noteOutcome (Event.new c V p) := congrArg World.a e2
      have ew : (t.world lead Prod.snd).way = rest := congrArg World.way e2
      rw [e1] at ih
      rw [ea, ew]
      exact ⟨fun q hq => ih.1 q (List.mem_cons_of_mem _ hq), (rejected_note (ih.1 p List.mem_cons_self) _).trans ih.2⟩
    · have ew : (t.world lead Prod.snd).way = (u.world lead Prod.snd).way := by
        unfold Bytes.world
        simp only [h1, h0, e1]
      have ea : t.a = u.a := by
        rcases e2 with ⟨x, new, a, f1, -, f3⟩ | e2
        · exact (congrArg World.a f3).trans (secretEnv_same _ _ _ _ f1)
        · exact congrArg World.a e2
      rw [ea, ew]
      exact ih

/-- **C123** (`uart`). That the crate knows the reasons is needed: there is an endless execution over a fair transport in which a
connection has ended, for a reason that the crate does not know, and the application believes for ever that it is encrypted. -/
theorem C123_uart_unknown_reason : ∃ s : Nat → Bytes SecretWorld Ledger Fifo,
    ByteEndless ⟨false, false⟩ demoVendor noSecrets (secretEnv ⟨false, false⟩ demoVendor True True False) Ledger.noteOutcome
      [0x04] Prod.fst Prod.snd (Uart.read ⟨false, false⟩ demoVendor fifo) uartOutcome s ∧
    BytesFair fifo 3 Ledger.noteOutcome [0x04] Prod.fst Prod.snd (Uart.read ⟨false, false⟩ demoVendor fifo) uartOutcome s ∧
    ∀ j, (s j).x.1 1 = false ∧ (s j).x.2.1 1 = false ∧ (s j).a.encrypted 1 = true := by
  obtain ⟨a, ha, h⟩ := ended_unread False 0x50 False.elim
  obtain ⟨s, h1, h2⟩ := C117_uart_complete h
  have hq (p : Fifo) := uart_quiet (c := ⟨false, false⟩) (V := demoVendor) fifo_quiet p
  have hm := uart_steps (c := ⟨false, false⟩) (V := demoVendor) fifo_delivers
  refine ⟨_, readsOn_endless hm hq h1, readsOn_fair hq 3 s, fun j => ?_⟩
  have hx : s.x = _ := congrArg World.x h2
  have hsa : s.a = a := congrArg World.a h2
  refine ⟨?_, ?_, ?_⟩
  · rw [(readsOn_told hq s j).2.2, hx]
    rfl
  · rw [(readsOn_told hq s j).2.2, hx]
    rfl
  · refine rejected_forever (g := 1) hm hq h1 ?_ (by rw [hsa]; exact ha) j
    rw [h2]
    simp only [List.mem_singleton, forall_eq]
    rintro ⟨e, he⟩
    cases he

/-- **C123** (`event_link`). The same without packet indicators. -/
theorem C123_event_link_unknown_reason : ∃ s : Nat → Bytes SecretWorld Ledger Fifo,
    ByteEndless ⟨false, false⟩ demoVendor noSecrets (secretEnv ⟨false, false⟩ demoVendor True True False) Ledger.noteOutcome
      [] Prod.fst Prod.snd (EventLink.read ⟨false, false⟩ demoVendor fifo) linkOutcome s ∧
    BytesFair fifo 2 Ledger.noteOutcome [] Prod.fst Prod.snd (EventLink.read ⟨false, false⟩ demoVendor fifo) linkOutcome s ∧
    ∀ j, (s j).x.1 1 = false ∧ (s j).x.2.1 1 = false ∧ (s j).a.encrypted 1 = true := by
  obtain ⟨a, ha, h⟩ := ended_unread False 0x50 False.elim
  obtain ⟨s, h1, h2⟩ := C117_event_link_complete h
  have hq (p : Fifo) := link_quiet (c := ⟨false, false⟩) (V := demoVendor) fifo_quiet p
  have hm := link_steps (c := ⟨false, false⟩) (V := demoVendor) fifo_delivers
  refine ⟨_, readsOn_endless hm hq h1, readsOn_fair hq 2 s, fun j => ?_⟩
  have hx : s.x = _ := congrArg World.x h2
  have hsa : s.a = a := congrArg World.a h2
  refine ⟨?_, ?_, ?_⟩
  · rw [(readsOn_told hq s j).2.2, hx]
    rfl
  · rw [(readsOn_told hq s j).2.2, hx]
    rfl
  · refine rejected_forever (g := 1) hm hq h1 ?_ (by rw [hsa]; exact ha) j
    rw [h2]
    simp only [List.mem_singleton, forall_eq]
    rintro ⟨e, he⟩
    cases he

end Bt
