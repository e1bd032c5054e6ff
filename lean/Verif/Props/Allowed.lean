import Verif.Spec.Allowed
import Verif.Props.WaitingLive

/-! # C103: a host that waits and heeds what it is told sends only what is allowed -/

namespace Bt

open Spec

/-- What is told about the number of commands is what the packet says. -/
theorem allowance_told {c : Cfg} {V : Vendor} {p : List UInt8} {e : V.Ev} (h : Event.new c V p = .ok e) :
    allowanceTold e = allowance p := by
  obtain ⟨code, ps, rfl, hl, hs⟩ := (C09_sound_and_complete c V _ _).mp h
  cases hs with
  | @commandComplete n o ps r hr => simp [allowanceTold, frame, le16_pair, allowance]
  | @commandCompleteVendor n o ps r hv hr => simp [allowanceTold, frame, le16_pair, allowance]
  | @commandStatus st x n o h1 => simp [allowanceTold, frame, le16_pair, allowance]
  | _ =>
    simp only [allowanceTold, frame]
    unfold allowance
    split
    · next heq =>
      obtain ⟨rfl, -⟩ := List.cons.inj heq
      simp
    · rfl

theorem filterMap_same {α β : Type} {f g : α → Option β} : ∀ {xs : List α}, (∀ x ∈ xs, f x = g x) →
    xs.filterMap f = xs.filterMap g
  | [], _ => rfl
  | x :: xs, h => by
    rw [List.filterMap_cons, List.filterMap_cons, h x (.head _), filterMap_same fun y hy => h y (.tail _ hy)]

theorem filterMap_length_eq {α β γ : Type} (f : α → Option β) (g : α → Option γ) :
    ∀ xs : List α, (∀ x ∈ xs, f x ≠ none → g x ≠ none) → (xs.filterMap g).length ≤ (xs.filterMap f).length →
      ∀ x ∈ xs, g x ≠ none → f x ≠ none
  | [], _, _ => by simp
  | x :: xs, h, hl => by
    have h' := fun y hy => h y (.tail _ hy)
    have hle := filterMap_length_le f g xs h'
    have hx := h x (.head _)
    rw [List.filterMap_cons, List.filterMap_cons] at hl
    cases hf : f x with
    | none =>
      cases hg : g x with
      | none =>
        rw [hf, hg] at hl
        intro y hy
        rcases List.mem_cons.mp hy with rfl | hy
        · exact fun h => absurd hg h
        · exact filterMap_length_eq f g xs h' hl y hy
      | some b =>
        rw [hf, hg] at hl
        simp only [List.length_cons] at hl
        omega
    | some a =>
      cases hg : g x with
      | none => exact absurd hg (hx (by simp [hf]))
      | some b =>
        rw [hf, hg] at hl
        intro y hy
        rcases List.mem_cons.mp hy with rfl | hy
        · simp [hf]
        · exact filterMap_length_eq f g xs h' (Nat.le_of_succ_le_succ hl) y hy

section
variable {σ E ε α : Type} {c : Cfg} {V : Vendor} {k : Controller σ E}
  {stream : σ → List UInt8} {taken : σ → Nat} {sent : σ → List UInt8} {before : Nat → σ}
  {read : Ctl σ ε α} {w : List UInt8 → List UInt8} {outcome : Res ε α → Option (Res V.EvErr V.Ev)}
  {acts : Nat → Act V.VStatus E (Res ε α)} {vinto : V.VStatus → UInt8}

theorem last_word (hk : Duplex k stream taken sent) (l : Link) (hw : PrefixFree w)
    (hm : Steps stream taken read w outcome (Event.new c V)) (hread : ∀ s, sent (read s).2 = sent s)
    {carries : List UInt8 → List (UInt16 × List UInt8) → Prop} {ws : List (List UInt8) → List UInt8}
    (hc : ∀ ps : List (UInt16 × List UInt8), (∀ p ∈ ps, p.2.length < 256) → carries (ps.map (cmdBytes l)).flatten ps)
    (hws : ∀ ps, ws ps = wire w ps)
    (h : Dialogue stream taken sent read (·.exec (linkHeader l) k vinto) (·.Constructible c) before acts)
    (hs : OneAtATime outcome acts)
    (ho : AnswersOnly stream taken sent carries ws before) (hin : AllowsInAnswers stream taken ws before)
    {n : Nat} {cmd : Command V.VStatus} {r : Res (Nb (HostError E V.VStatus)) Unit} (ha : acts n = .command cmd r)
    {packets : List (List UInt8)} (hf : ∀ p ∈ packets, Framed p)
    (hp : wire w packets <+: (stream (before n)).drop (taken (before 0)))
    (ht : taken (before n) ≤ taken (before 0) + (wire w packets).length) :
    lastWord packets = lastTold outcome (firstActs acts n) := by
  obtain ⟨reads, hpr⟩ := dialogue_read hk l hm h
  have hcount := only_count hk l hread hc hws h ho
  have hmono : ∀ {i j}, i ≤ j → (stream (before i)).drop (taken (before 0)) <+: (stream (before j)).drop (taken (before 0)) :=
    fun hij => prefix_drop (dialogue_stream hk l hm h hij) _
  have htold := told_at_most (c := c) fun n => (hpr n).2.1
  obtain ⟨h1, h2, h3, h4⟩ := hpr n
  -- nothing is left to be read that answers a command
  have hans := (answers_prefix api_opcode hs hw hmono (fun n => ⟨(hpr n).1, (hpr n).2.2.1⟩) htold hcount n packets hf
    hp).length_le
  have hset := settled_told api_opcode hs n (hs n cmd r ha)
  have hpre : reads n <+: packets := read_before hw h1 hf h3 hp (by rw [← h4]; exact ht)
  obtain ⟨more, rfl⟩ := hpre
  have hsplit : answersIn (reads n ++ more) = answersIn (reads n) ++ answersIn more := by
    rw [answersIn, answersIn, answersIn, List.filterMap_append]
  rw [hsplit, List.length_append, List.length_map] at hans
  have hle := htold n
  have hmore : more.filterMap allowance = [] := by
    have hnil : answersIn more = [] := List.length_eq_zero_iff.mp (by omega)
    refine List.filterMap_eq_nil_iff.mpr fun p hpm => ?_
    by_cases hap : allowance p = none
    · exact hap
    · have := hin n _ hf (by rw [hws]; exact hp) p (List.mem_append_right _ hpm) hap
      exact absurd (List.filterMap_eq_nil_iff.mp hnil p hpm) this
  -- and every answer was understood
  have hund : ∀ p ∈ reads n, answeredOpcode p ≠ none → ∃ e, Event.new c V p = .ok e := by
    have hlen : (answersIn (reads n)).length ≤ (toldBy outcome (firstActs acts n)).length := by omega
    rw [toldBy, h2, answersTold, List.filterMap_map] at hlen
    intro p hp hap
    have := filterMap_length_eq _ answeredOpcode (reads n) (fun p _ hp => ?_) hlen p hp hap
    · simp only [Function.comp] at this
      split at this
      · next e he => exact ⟨e, he⟩
      · exact absurd rfl this
    · simp only [Function.comp] at hp
      split at hp
      · next e he =>
        split at hp
        · next ha => exact isAnswer_answered he ha
        · exact absurd rfl hp
      · exact absurd rfl hp
  rw [lastWord, lastTold, List.filterMap_append, hmore, List.append_nil, h2, List.filterMap_map]
  congr 1
  refine filterMap_same fun p hpr => ?_
  simp only [Function.comp]
  cases hd : Event.new c V p with
  | ok e => exact (allowance_told hd).symm
  | _ =>
    by_cases hap : allowance p = none
    · exact hap
    · have := hin n _ hf (by rw [hws]; exact hp) p (List.mem_append_left _ hpr) hap
      obtain ⟨e, he⟩ := hund p hpr this
      rw [hd] at he
      cases he

end

/-! ## The host and the controller that take turns -/

theorem scripted_allows {c : Cfg} {V : Vendor} {vinto : V.VStatus → UInt8} {script : Nat → Option (Command V.VStatus)}
    (hs : ∀ i cmd, script i = some cmd → cmd.Constructible c) :
    AllowsInAnswers (·.queue.1) (·.queue.2) uartBytes (scripted c V vinto script) := by
  intro n packets hf hp p hpm _
  have hp : uartBytes packets <+: (scripted c V vinto script n).queue.1 := hp
  rw [scripted_answers hs n] at hp
  obtain ⟨t, ht⟩ := hp
  obtain ⟨more, hpre⟩ := wire_prefix prefixFree_uart packets _ t [] hf
    (fun q hq => by obtain ⟨p, -, rfl⟩ := List.mem_map.mp hq; exact ⟨_, _, by simp [le16], rfl⟩)
    (fun p u _ h => by cases h) (ht.trans (List.append_nil _).symm)
  have hin : p ∈ packets ++ more := List.mem_append_left _ hpm
  rw [hpre, accepted_succeeded, List.map_map] at hin
  obtain ⟨cmd, -, rfl⟩ := List.mem_map.mp hin
  exact fun h => Option.some_ne_none _ (((answeredOpcode_iff ⟨_, _, by simp [le16], rfl⟩ (cmdOpcode cmd)).mpr
    ⟨api_opcode cmd, .status⟩).symm.trans h)

theorem turns_heeds (vinto : demoVendor.VStatus → UInt8) :
    Heeds uartOutcome (scriptedActs ⟨false, false⟩ demoVendor vinto turns) := by
  intro n cmd r _ h0
  obtain ⟨x, hx, he⟩ := List.mem_filterMap.mp (List.mem_of_getLast? h0)
  obtain ⟨r', hr, ho⟩ := List.mem_filterMap.mp hx
  obtain ⟨a, ha, har⟩ := List.mem_filterMap.mp hr
  obtain ⟨j, -, rfl⟩ := List.mem_map.mp ha
  rcases Nat.even_or_odd' j with ⟨i, rfl | rfl⟩
  · rw [(turns_states vinto i).2.1] at har
    cases har
  · rw [(turns_states vinto i).2.2] at har
    cases har
    cases ho
    cases he

/-! ## C103 -/

section
variable {σ E : Type} {c : Cfg} {V : Vendor} {k : Controller σ E}
  {stream : σ → List UInt8} {taken : σ → Nat} {sent : σ → List UInt8} {before : Nat → σ}

/-- **C103.** When a host that waits for answers issues a command, it knows what the controller said last about the
number of commands it allows, even if more packets have arrived than were read. -/
theorem C103_uart_known (hk : Duplex k stream taken sent)
    {acts : Nat → Act V.VStatus E (Res (Nb (UartError E V.VErr)) (UartPacket V))} (vinto : V.VStatus → UInt8)
    (h : Dialogue stream taken sent (Uart.read c V k) (·.exec uartHeader k vinto) (·.Constructible c) before acts)
    (hs : OneAtATime uartOutcome acts) (ho : AnswersOnly stream taken sent UartCarries uartBytes before)
    (hin : AllowsInAnswers stream taken uartBytes before) {n : Nat} {cmd : Command V.VStatus}
    {r : Res (Nb (HostError E V.VStatus)) Unit} (ha : acts n = .command cmd r)
    {packets : List (List UInt8)} (hf : ∀ p ∈ packets, Framed p)
    (hp : uartBytes packets <+: (stream (before n)).drop (taken (before 0)))
    (ht : taken (before n) ≤ taken (before 0) + (uartBytes packets).length) :
    lastWord packets = lastTold uartOutcome (firstActs acts n) :=
  last_word hk .uart prefixFree_uart (uart_steps hk.delivers) (uart_sends_nothing hk) (fun ps hps => parse_all ps hps)
    (fun _ => rfl) h hs ho hin ha hf hp ht

/-- **C103.** If it issues none when it was told that none is allowed, then it never sends a command that the
controller does not allow: by the last word of the packets received by then, read or not. -/
theorem C103_uart (hk : Duplex k stream taken sent)
    {acts : Nat → Act V.VStatus E (Res (Nb (UartError E V.VErr)) (UartPacket V))} (vinto : V.VStatus → UInt8)
    (h : Dialogue stream taken sent (Uart.read c V k) (·.exec uartHeader k vinto) (·.Constructible c) before acts)
    (hs : OneAtATime uartOutcome acts) (hh : Heeds uartOutcome acts)
    (ho : AnswersOnly stream taken sent UartCarries uartBytes before)
    (hin : AllowsInAnswers stream taken uartBytes before) {n : Nat} {cmd : Command V.VStatus}
    {r : Res (Nb (HostError E V.VStatus)) Unit} (ha : acts n = .command cmd r)
    {packets : List (List UInt8)} (hf : ∀ p ∈ packets, Framed p)
    (hp : uartBytes packets <+: (stream (before n)).drop (taken (before 0)))
    (ht : taken (before n) ≤ taken (before 0) + (uartBytes packets).length) :
    lastWord packets ≠ some 0 := by
  rw [C103_uart_known hk vinto h hs ho hin ha hf hp ht]
  exact hh n cmd r ha

/-- Reset and its answer, which allows one command, for ever. -/
example (vinto : demoVendor.VStatus → UInt8) (j : Nat) :
    ∃ packets, (∀ p ∈ packets, Framed p) ∧
      uartBytes packets = (scripted ⟨false, false⟩ demoVendor vinto turns (2 * j)).queue.1 ∧ lastWord packets ≠ some 0 := by
  have hq := scripted_answers (vinto := vinto) (turns_allowed (c := ⟨false, false⟩)) (2 * j)
  refine ⟨_, ?_, hq.symm, C103_uart (before := scripted ⟨false, false⟩ demoVendor vinto turns) responder_duplex vinto (scripted_dialogue (turns_allowed _)) (turns_waits vinto)
    (turns_heeds vinto) (scripted_only (turns_allowed _)) (scripted_allows (turns_allowed _)) (turns_states vinto j).2.1 ?_
    ?_ ?_⟩
  · intro p hp
    obtain ⟨q, -, rfl⟩ := List.mem_map.mp hp
    exact ⟨_, _, by simp [le16], rfl⟩
  · intro p hp
    obtain ⟨q, -, rfl⟩ := List.mem_map.mp hp
    exact ⟨_, _, by simp [le16], rfl⟩
  · rw [← hq]
    exact List.prefix_rfl
  · rw [← hq, (turns_states vinto j).1]
    exact Nat.le_add_left _ _

end

section
variable {σ₁ σ₂ E : Type} {c : Cfg} {V : Vendor} {events : Controller σ₁ E} {commands : Controller σ₂ E}
  {stream : σ₁ → List UInt8} {taken : σ₁ → Nat} {sent : σ₂ → List UInt8} {before : Nat → σ₁ × σ₂}

/-- The same with a link for the events and one for the commands. -/
theorem C103_two_links_known (hd : Delivers events stream taken) (hw : WritesAtomically commands sent)
    {acts : Nat → Act V.VStatus E (Res (Nb (EventLinkError E V.VErr)) V.Ev)} (vinto : V.VStatus → UInt8)
    (h : Dialogue (fun s => stream s.1) (fun s => taken s.1) (fun s => sent s.2)
      (EventLink.read c V (twoLinks events commands))
      (·.exec cmdLinkHeader (twoLinks events commands) vinto) (·.Constructible c) before acts)
    (hs : OneAtATime linkOutcome acts)
    (ho : AnswersOnly (fun s => stream s.1) (fun s => taken s.1) (fun s => sent s.2) LinkCarries List.flatten before)
    (hin : AllowsInAnswers (fun s => stream s.1) (fun s => taken s.1) List.flatten before)
    {n : Nat} {cmd : Command V.VStatus} {r : Res (Nb (HostError E V.VStatus)) Unit} (ha : acts n = .command cmd r)
    {packets : List (List UInt8)} (hf : ∀ p ∈ packets, Framed p)
    (hp : packets.flatten <+: (stream (before n).1).drop (taken (before 0).1))
    (ht : taken (before n).1 ≤ taken (before 0).1 + packets.flatten.length) :
    lastWord packets = lastTold linkOutcome (firstActs acts n) := by
  have hk := twoLinks_duplex hd hw
  exact last_word hk .cmdLink prefixFree_id (link_steps hk.delivers) (link_sends_nothing hk) link_carries
    (fun ps => (wire_id ps).symm) h hs ho hin ha hf (by rw [wire_id]; exact hp) (by rw [wire_id]; exact ht)

theorem C103_two_links (hd : Delivers events stream taken) (hw : WritesAtomically commands sent)
    {acts : Nat → Act V.VStatus E (Res (Nb (EventLinkError E V.VErr)) V.Ev)} (vinto : V.VStatus → UInt8)
    (h : Dialogue (fun s => stream s.1) (fun s => taken s.1) (fun s => sent s.2)
      (EventLink.read c V (twoLinks events commands))
      (·.exec cmdLinkHeader (twoLinks events commands) vinto) (·.Constructible c) before acts)
    (hs : OneAtATime linkOutcome acts) (hh : Heeds linkOutcome acts)
    (ho : AnswersOnly (fun s => stream s.1) (fun s => taken s.1) (fun s => sent s.2) LinkCarries List.flatten before)
    (hin : AllowsInAnswers (fun s => stream s.1) (fun s => taken s.1) List.flatten before)
    {n : Nat} {cmd : Command V.VStatus} {r : Res (Nb (HostError E V.VStatus)) Unit} (ha : acts n = .command cmd r)
    {packets : List (List UInt8)} (hf : ∀ p ∈ packets, Framed p)
    (hp : packets.flatten <+: (stream (before n).1).drop (taken (before 0).1))
    (ht : taken (before n).1 ≤ taken (before 0).1 + packets.flatten.length) :
    lastWord packets ≠ some 0 := by
  rw [C103_two_links_known hd hw vinto h hs ho hin ha hf hp ht]
  exact hh n cmd r ha

/-- LE Rand is sent over two links after Reset was answered with a Command Complete that allows one command. -/
example : lastWord [[0x10, 0x01, 0x2A], [0x0E, 4, 1, 0x03, 0x0C, 0]] ≠ some 0 := by
  refine C103_two_links (c := ⟨false, false⟩) (V := demoVendor) (before := resetStates) (acts := resetActs)
    fifo_delivers modem_duplex.writes id reset_session.1 reset_session.2.1 ?_ reset_session.2.2 ?_ (n := 3) rfl
    reset_framed.1 List.prefix_rfl (by decide)
  · intro n cmd r hn
    rcases n with _ | _ | _ | _ | _ | n
    · exact (by decide : (none : Option UInt8) ≠ some 0)
    · cases hn
    · cases hn
    · exact (by decide : some (1 : UInt8) ≠ some 0)
    · cases hn
    · cases hn
  · intro n packets hf hp p hpm ha
    have hp := reset_received n packets hf hp
    have hall : packets <+: [[0x10, 0x01, 0x2A], [0x0E, 4, 1, 0x03, 0x0C, 0], [0x0F, 4, 0, 1, 0x18, 0x20]] := by
      refine hp.trans ?_
      split
      · exact List.nil_prefix
      · split
        · exact ⟨[[0x0F, 4, 0, 1, 0x18, 0x20]], rfl⟩
        · exact List.prefix_rfl
    have hm := hall.subset hpm
    simp only [List.mem_cons, List.not_mem_nil, or_false] at hm
    rcases hm with rfl | rfl | rfl
    · exact absurd rfl ha
    · decide
    · decide

end

end Bt
