import Verif.Props.Waiting

/-! # C102: a host that waits for answers does not wait in vain -/

namespace Bt

open Spec

/-- An answer that is understood is understood as an answer. -/
theorem answered_isAnswer {c : Cfg} {V : Vendor} {p : List UInt8} {e : V.Ev} (hf : Framed p) (h : Event.new c V p = .ok e)
    (ha : answeredOpcode p ≠ none) : IsAnswer e = true := by
  obtain ⟨o, ho⟩ := Option.ne_none_iff_exists'.mp ha
  obtain ⟨h0, ho⟩ := (answeredOpcode_iff hf o).mp ho
  cases ho with
  | @complete n ps hl =>
    rcases C21_by_opcode c V n o ps e h with ⟨h, -⟩ | ⟨r, rfl, hr⟩ | ⟨-, v, -, rfl⟩
    · exact absurd h h0
    · cases r <;> first | rfl | cases hr
    · rfl
  | @status st n =>
    obtain ⟨code, ps, hf, -, hs⟩ := (C09_sound_and_complete c V _ _).mp h
    obtain ⟨rfl, rfl⟩ := frame_inj hf
    generalize hp : st :: n :: le16 o = ps at hs
    cases hs with
    | commandStatus h1 =>
      simp only [List.cons.injEq] at hp
      obtain ⟨rfl, rfl, ho⟩ := hp
      rw [← le16_inj ho]
      simpa [IsAnswer] using h0

section
variable {VS E ρ δ : Type} {V : Vendor} {outcome : ρ → Option (Res δ V.Ev)} {acts : Nat → Act VS E ρ}

theorem firstActs_append {A : Type} (acts : Nat → A) (n d : Nat) :
    firstActs acts (n + d) = firstActs acts n ++ (List.range d).map fun i => acts (n + i) := by
  rw [firstActs, firstActs, List.range_add, List.map_append, List.map_map]
  rfl

/-- When an answer was told. -/
theorem told_when {n N i : Nat} {e : V.Ev} (hN : n ≤ N) (hn : (toldBy outcome (firstActs acts n)).length ≤ i)
    (hi : (toldBy outcome (firstActs acts N))[i]? = some e) :
    ∃ m r, n ≤ m ∧ acts m = .read r ∧ outcome r = some (.ok e) := by
  obtain ⟨d, rfl⟩ := Nat.exists_eq_add_of_le hN
  rw [firstActs_append, toldBy_append, List.getElem?_append_right hn] at hi
  have hm := List.mem_of_getElem? hi
  obtain ⟨x, hx, he⟩ := List.mem_filterMap.mp hm
  obtain ⟨r, hr, ho⟩ := List.mem_filterMap.mp hx
  obtain ⟨a, ha, har⟩ := List.mem_filterMap.mp hr
  obtain ⟨j, -, rfl⟩ := List.mem_map.mp ha
  cases hj : acts (n + j) with
  | command cmd r' => rw [hj] at har; cases har
  | read r' =>
    rw [hj] at har
    cases har
    cases x with
    | ok e' =>
      simp only at he
      split at he
      · cases he
        exact ⟨n + j, r, Nat.le_add_right _ _, hj, ho⟩
      · cases he
    | err _ => cases he
    | panic => cases he

theorem settled_more {past later : List (Act VS E ρ)} (h : Settled outcome past)
    (hl : ∀ earlier cmd rest, later = earlier ++ .command cmd (.ok ()) :: rest →
      ∃ r e, .read r ∈ rest ∧ outcome r = some (.ok e) ∧ TellsAnswer cmd e) : Settled outcome (past ++ later) := by
  intro earlier cmd rest he
  rcases List.append_eq_append_iff.mp he with ⟨t, h1, h2⟩ | ⟨t, h1, h2⟩
  · obtain ⟨r, e, hr, h⟩ := hl t cmd rest h2
    exact ⟨r, e, hr, h⟩
  · cases t with
    | nil =>
      obtain ⟨r, e, hr, h⟩ := hl [] cmd rest h2.symm
      exact ⟨r, e, hr, h⟩
    | cons a t =>
      obtain ⟨rfl, rfl⟩ := List.cons.inj h2
      obtain ⟨r, e, hr, h⟩ := h earlier cmd t h1
      exact ⟨r, e, List.mem_append_left _ hr, h⟩

/-- If every command is answered, all commands are answered again and again. -/
theorem settles (hs : OneAtATime outcome acts)
    (hans : ∀ n cmd, acts n = .command cmd (.ok ()) →
      ∃ m r e, n < m ∧ acts m = .read r ∧ outcome r = some (.ok e) ∧ TellsAnswer cmd e) (n : Nat) :
    ∃ m, n ≤ m ∧ Settled outcome (firstActs acts m) := by
  by_cases hex : ∃ p cmd r, n ≤ p ∧ acts p = .command cmd r
  · obtain ⟨p, cmd, r, hp, ha⟩ := hex
    exact ⟨p, hp, hs p cmd r ha⟩
  · have quiet : ∀ p, n ≤ p → ∀ cmd r, acts p ≠ .command cmd r := fun p hp cmd r h => hex ⟨p, cmd, r, hp, h⟩
    rcases last_command acts n with h0 | ⟨q, cmd, hq, ha, hl⟩
    · refine ⟨n, Nat.le_refl _, fun earlier cmd later he => ?_⟩
      rw [he, succeeded_append] at h0
      have := (List.append_eq_nil_iff.mp h0).2
      cases this
    · obtain ⟨m, r, e, hm, har, ho, ht⟩ := hans q cmd ha
      refine ⟨max n (m + 1), Nat.le_max_left _ _, ?_⟩
      have hqN : q < max n (m + 1) := by omega
      have hmN : m < max n (m + 1) := by omega
      obtain ⟨d, hd⟩ := Nat.exists_eq_add_of_lt hqN
      have hsplit : firstActs acts (max n (m + 1)) =
          firstActs acts q ++ .command cmd (.ok ()) :: (List.range d).map fun i => acts (q + 1 + i) := by
        rw [hd, show q + d + 1 = q + 1 + d by omega, firstActs_append, firstActs_succ, ha]
        simp
      rw [hsplit]
      refine settled_more (hs q cmd _ ha) fun earlier cmd' rest he => ?_
      cases earlier with
      | nil =>
        obtain ⟨h1, h2⟩ := List.cons.inj he
        cases h1
        refine ⟨r, e, ?_, ho, ht⟩
        rw [← h2, ← har]
        exact List.mem_map.mpr ⟨m - (q + 1), List.mem_range.mpr (by omega), by congr 1; omega⟩
      | cons a earlier =>
        obtain ⟨-, h2⟩ := List.cons.inj he
        have hmem : Act.command cmd' (.ok ()) ∈ (List.range d).map fun i => acts (q + 1 + i) := by rw [h2]; simp
        obtain ⟨i, hi, hc⟩ := List.mem_map.mp hmem
        by_cases hqi : n ≤ q + 1 + i
        · exact absurd hc (quiet _ hqi _ _)
        · obtain ⟨d', hd'⟩ := Nat.exists_eq_add_of_lt hq
          have : Act.succeeded (firstActs acts n) = Act.succeeded (firstActs acts q) ++ cmd ::
              Act.succeeded ((List.range d').map fun i => acts (q + 1 + i)) := by
            rw [hd', show q + d' + 1 = q + 1 + d' by omega, firstActs_append, succeeded_append, firstActs_succ,
              succeeded_append, ha, List.append_assoc]
            rfl
          rw [hl] at this
          have hnil := (List.cons.inj (List.append_cancel_left this)).2
          have hin : cmd' ∈ Act.succeeded ((List.range d').map fun i => acts (q + 1 + i)) :=
            List.mem_filterMap.mpr ⟨_, List.mem_map.mpr ⟨i, List.mem_range.mpr (by omega), hc⟩, rfl⟩
          rw [← hnil] at hin
          cases hin

end

section
variable {σ E ε α : Type} {c : Cfg} {V : Vendor} {k : Controller σ E}
  {stream : σ → List UInt8} {taken : σ → Nat} {sent : σ → List UInt8} {before : Nat → σ}
  {read : Ctl σ ε α} {w : List UInt8 → List UInt8} {outcome : Res ε α → Option (Res V.EvErr V.Ev)}
  {acts : Nat → Act V.VStatus E (Res ε α)} {vinto : V.VStatus → UInt8}

theorem waits_answered (hk : Duplex k stream taken sent) (l : Link) (hw : PrefixFree w)
    (hm : Steps stream taken read w outcome (Event.new c V)) (hread : ∀ s, sent (read s).2 = sent s) {calls : Nat}
    (hp : ∀ {s p tail}, ServesNext k stream taken calls s → Framed p → pending stream taken s = w p ++ tail →
      outcome (read s).1 ≠ none)
    {carries : List UInt8 → List (UInt16 × List UInt8) → Prop} {ws : List (List UInt8) → List UInt8}
    (hc : ∀ ps : List (UInt16 × List UInt8), (∀ p ∈ ps, p.2.length < 256) → carries (ps.map (cmdBytes l)).flatten ps)
    (hws : ∀ ps, ws ps = wire w ps)
    (h : Dialogue stream taken sent read (·.exec (linkHeader l) k vinto) (·.Constructible c) before acts)
    (hfair : ReadsFairly k stream taken calls before acts) (hs : OneAtATime outcome acts)
    (ho : AnswersOnly stream taken sent carries ws before) (he : AnswersEach c V stream taken sent carries ws before)
    (n : Nat) (cmd : Command V.VStatus) (ha : acts n = .command cmd (.ok ())) :
    ∃ m r e, n < m ∧ acts m = .read r ∧ outcome r = some (.ok e) ∧ TellsAnswer cmd e := by
  obtain ⟨packets_read, hpr⟩ := dialogue_read hk l hm h
  have hcount := only_count hk l hread hc hws h ho
  have hmono : ∀ {i j}, i ≤ j → (stream (before i)).drop (taken (before 0)) <+: (stream (before j)).drop (taken (before 0)) :=
    fun hij => prefix_drop (dialogue_stream hk l hm h hij) _
  have htold := told_at_most (c := c) fun n => (hpr n).2.1
  have hsucc : Act.succeeded (firstActs acts (n + 1)) = Act.succeeded (firstActs acts n) ++ [cmd] := by
    rw [firstActs_succ, succeeded_append, ha]
    rfl
  -- all the answers arrive and are read
  obtain ⟨h1, h2⟩ := session_sent hk l hread (dialogue_session h (n + 1))
  obtain ⟨b, packets, hf, hb, hlen, hund⟩ := he (n + 1) _ _ h1 (hc _ h2)
  rw [hws] at hb
  obtain ⟨N, -, t, ht⟩ := live_dialogue hk l hw hm hp h hfair hf hb
  have hreads : ∀ {i j}, i ≤ j → toldBy outcome (firstActs acts i) <+: toldBy outcome (firstActs acts j) := by
    intro i j hij
    obtain ⟨d, rfl⟩ := Nat.exists_eq_add_of_le hij
    rw [firstActs_append, toldBy_append]
    exact List.prefix_append _ _
  have hmany : (answersIn packets).length ≤ (toldBy outcome (firstActs acts N)).length := by
    rw [toldBy, ← ht, answersTold, List.filterMap_append, List.length_append, List.filterMap_map]
    refine Nat.le_trans (filterMap_length_le _ _ packets fun p hp ha => ?_) (Nat.le_add_right _ _)
    obtain ⟨e, he⟩ := hund p hp ha
    simp [Function.comp, he, answered_isAnswer (hf p hp) he ha]
  have hi : (Act.succeeded (firstActs acts n)).length < (toldBy outcome (firstActs acts (max N (n + 1)))).length := by
    rw [accepted_succeeded, List.length_map, hsucc, List.length_append, List.length_singleton] at hlen
    have := (hreads (Nat.le_max_left N (n + 1))).length_le
    omega
  have hget := List.getElem?_eq_getElem hi
  obtain ⟨cmd', hc', hta⟩ := told_paired hs hw hmono (fun n => ⟨(hpr n).1, (hpr n).2.1, (hpr n).2.2.1⟩) hcount _ _ _ hget
  -- the one at the place of the command is the answer to the command
  obtain ⟨d, hd⟩ := Nat.exists_eq_add_of_le (Nat.le_max_right N (n + 1))
  rw [hd, firstActs_append, succeeded_append, hsucc, List.append_assoc, List.getElem?_append_right (Nat.le_refl _),
    Nat.sub_self] at hc'
  cases hc'
  -- and was not read before the command
  have hbefore : (toldBy outcome (firstActs acts (n + 1))).length ≤ (Act.succeeded (firstActs acts n)).length := by
    rw [firstActs_succ, toldBy_append, ha, show toldBy outcome [.command (ρ := Res ε α) (E := E) cmd (.ok ())] = [] from rfl,
      List.append_nil]
    have := (answers_prefix api_opcode hs hw hmono (fun n => ⟨(hpr n).1, (hpr n).2.2.1⟩) htold hcount n _ (hpr n).1
      (hpr n).2.2.1).length_le
    rw [List.length_map] at this
    exact Nat.le_trans (htold n) this
  obtain ⟨m, r, hm, har, hor⟩ := told_when (Nat.le_max_right N (n + 1)) hbefore hget
  exact ⟨m, r, _, hm, har, hor, hta⟩

end

section
variable {σ E : Type} {c : Cfg} {V : Vendor} {k : Controller σ E}
  {stream : σ → List UInt8} {taken : σ → Nat} {sent : σ → List UInt8} {before : Nat → σ}

/-- **C102.** A host that waits for each answer, and reads again and again while the controller serves it, does not
wait in vain: if the controller answers each command once, then after every command that returned Ok an event is read
that tells that it was answered, and again and again all commands are answered, so that the host may go on. -/
theorem C102_uart (hk : Duplex k stream taken sent)
    {acts : Nat → Act V.VStatus E (Res (Nb (UartError E V.VErr)) (UartPacket V))} (vinto : V.VStatus → UInt8)
    (h : Dialogue stream taken sent (Uart.read c V k) (·.exec uartHeader k vinto) (·.Constructible c) before acts)
    (hfair : ReadsFairly k stream taken 3 before acts) (hs : OneAtATime uartOutcome acts)
    (ho : AnswersOnly stream taken sent UartCarries uartBytes before)
    (he : AnswersEach c V stream taken sent UartCarries uartBytes before) :
    (∀ n cmd, acts n = .command cmd (.ok ()) →
      ∃ m r e, n < m ∧ acts m = .read r ∧ uartOutcome r = some (.ok e) ∧ TellsAnswer cmd e) ∧
    ∀ n, ∃ m, n ≤ m ∧ Settled uartOutcome (firstActs acts m) := by
  have hans := waits_answered hk .uart prefixFree_uart (uart_steps hk.delivers) (uart_sends_nothing hk)
    (fun h1 h2 h3 => uart_serves hk.delivers h1 h2 h3) (fun ps hps => parse_all ps hps) (fun _ => rfl) h hfair hs ho he
  exact ⟨hans, settles hs hans⟩

theorem scripted_each {c : Cfg} {V : Vendor} {vinto : V.VStatus → UInt8} {script : Nat → Option (Command V.VStatus)}
    (hs : ∀ i cmd, script i = some cmd → cmd.Constructible c)
    (hd : ∀ o, ∃ e, Event.new c V (frame 0x0F (0x00 :: 0x01 :: le16 o)) = .ok e) :
    AnswersEach c V (·.queue.1) (·.queue.2) (·.sent) UartCarries uartBytes (scripted c V vinto script) := by
  intro n new commands hn hc
  obtain ⟨h1, h2⟩ := session_sent responder_duplex .uart (uart_sends_nothing responder_duplex)
    (dialogue_session (scripted_dialogue (vinto := vinto) hs) n)
  obtain rfl := List.append_cancel_left (hn.symm.trans h1)
  obtain rfl := Option.some.inj ((parse_all _ h2).symm.trans hc)
  refine ⟨n, (Act.accepted (firstActs (scriptedActs c V vinto script) n)).map fun p =>
    frame 0x0F (0x00 :: 0x01 :: le16 p.1), ?_, ?_, ?_, ?_⟩
  · intro p hp
    obtain ⟨q, -, rfl⟩ := List.mem_map.mp hp
    exact ⟨_, _, by simp [le16], rfl⟩
  · show _ <+: List.drop _ (scripted c V vinto script n).queue.1
    rw [scripted_answers hs n]
    exact List.prefix_rfl
  · rw [scripted_statuses]
    · rw [List.length_map]
    · intro p hp
      rw [accepted_succeeded] at hp
      obtain ⟨cmd, -, rfl⟩ := List.mem_map.mp hp
      exact api_opcode cmd
  · intro p hp _
    obtain ⟨q, -, rfl⟩ := List.mem_map.mp hp
    exact hd q.1

/-- Reset and its answer, for ever. -/
example (vinto : demoVendor.VStatus → UInt8) (n : Nat) :
    ∃ m, n ≤ m ∧ Settled uartOutcome (firstActs (scriptedActs ⟨false, false⟩ demoVendor vinto turns) m) :=
  (C102_uart responder_duplex vinto (scripted_dialogue (turns_allowed _))
    (fun i => ⟨2 * i + 1, by omega, ⟨_, (turns_states vinto i).2.2⟩, prompt_serves responder_prompt 3 _⟩)
    (turns_waits vinto) (scripted_only (turns_allowed _))
    (scripted_each (turns_allowed _) fun o => ⟨.commandStatus ⟨.success, 1, ⟨o⟩⟩,
      (C09_sound_and_complete ⟨false, false⟩ demoVendor _ _).mpr ⟨_, _, rfl, by simp [le16],
        .commandStatus (s := .success) (show StatusByte ⟨false, false⟩ demoVendor 0 .success from rfl)⟩⟩)).2 n

end

section
variable {σ₁ σ₂ E : Type} {c : Cfg} {V : Vendor} {events : Controller σ₁ E} {commands : Controller σ₂ E}
  {stream : σ₁ → List UInt8} {taken : σ₁ → Nat} {sent : σ₂ → List UInt8} {before : Nat → σ₁ × σ₂}

/-- The same with a link for the events and one for the commands. -/
theorem C102_two_links (hd : Delivers events stream taken) (hw : WritesAtomically commands sent)
    {acts : Nat → Act V.VStatus E (Res (Nb (EventLinkError E V.VErr)) V.Ev)} (vinto : V.VStatus → UInt8)
    (h : Dialogue (fun s => stream s.1) (fun s => taken s.1) (fun s => sent s.2)
      (EventLink.read c V (twoLinks events commands))
      (·.exec cmdLinkHeader (twoLinks events commands) vinto) (·.Constructible c) before acts)
    (hfair : ReadsFairly (twoLinks events commands) (fun s => stream s.1) (fun s => taken s.1) 2 before acts)
    (hs : OneAtATime linkOutcome acts)
    (ho : AnswersOnly (fun s => stream s.1) (fun s => taken s.1) (fun s => sent s.2) LinkCarries List.flatten before)
    (he : AnswersEach c V (fun s => stream s.1) (fun s => taken s.1) (fun s => sent s.2) LinkCarries List.flatten
      before) :
    (∀ n cmd, acts n = .command cmd (.ok ()) →
      ∃ m r e, n < m ∧ acts m = .read r ∧ linkOutcome r = some (.ok e) ∧ TellsAnswer cmd e) ∧
    ∀ n, ∃ m, n ≤ m ∧ Settled linkOutcome (firstActs acts m) := by
  have hk := twoLinks_duplex hd hw
  have hans := waits_answered hk .cmdLink prefixFree_id (link_steps hk.delivers) (link_sends_nothing hk)
    (fun h1 h2 h3 => link_serves hk.delivers h1 h2 h3) link_carries (fun ps => (wire_id ps).symm) h hfair hs ho he
  exact ⟨hans, settles hs hans⟩

/-- Reset and LE Rand over two links. -/
example (n : Nat) : ∃ m, n ≤ m ∧ Settled (V := demoVendor) linkOutcome (firstActs resetActs m) := by
  refine (C102_two_links (c := ⟨false, false⟩) (V := demoVendor) (before := resetStates) (acts := resetActs) fifo_delivers
    modem_duplex.writes id reset_session.1
    (fun i => ⟨i + 5, by omega, ⟨_, rfl⟩, prompt_serves (k := twoLinks fifo modem) (stream := fun s => s.1.1)
      (taken := fun s => s.1.2) ⟨fun n s h => fifo_prompt.peek n s.1 h, fun n s h => fifo_prompt.readInto n s.1 h⟩ 2 _⟩)
    reset_session.2.1 reset_session.2.2 ?_).2 n
  intro n new commands hn hc
  refine ⟨4, [[0x10, 0x01, 0x2A], [0x0E, 4, 1, 0x03, 0x0C, 0], [0x0F, 4, 0, 1, 0x18, 0x20]], reset_framed.2,
    List.prefix_rfl, ?_, ?_⟩
  · rw [reset_sent n new commands hn hc]
    split
    · decide
    · split <;> decide
  · intro p hp _
    simp only [List.mem_cons, List.not_mem_nil, or_false] at hp
    rcases hp with rfl | rfl | rfl <;> exact ⟨_, rfl⟩

end

end Bt
