import Verif.Spec.Dialogue
import Verif.Lemmas.Forever

/-! # Lemmas: sessions that never end -/

namespace Bt

open Spec

section
variable {σ E ε α VS : Type} {stream : σ → List UInt8} {taken : σ → Nat} {sent : σ → List UInt8}
  {read : Ctl σ ε α} {exec : Command VS → Ctl σ (Nb (HostError E VS)) Unit} {allowed : Command VS → Prop}
  {before : Nat → σ} {acts : Nat → Act VS E (Res ε α)}

theorem firstActs_succ {A : Type} (acts : Nat → A) (n : Nat) : firstActs acts (n + 1) = firstActs acts n ++ [acts n] := by
  simp [firstActs, List.range_succ]

theorem Session.snoc {s s₁ s₂ s' : σ} {as : List (Act VS E (Res ε α))} {a : Act VS E (Res ε α)}
    (h : Session stream taken sent read exec allowed s as s₁)
    (ha : match a with
      | .read r => read s₁ = (r, s₂)
      | .command cmd r => allowed cmd ∧ exec cmd s₁ = (r, s₂))
    (h1 : stream s₂ <+: stream s') (h2 : taken s' = taken s₂) (h3 : sent s' = sent s₂) :
    Session stream taken sent read exec allowed s (as ++ [a]) s' := by
  induction h with
  | nil s =>
    cases a with
    | read r => exact .read ha (.wait h1 h2 h3 (.nil _))
    | command cmd r => exact .command ha.1 ha.2 (.wait h1 h2 h3 (.nil _))
  | wait g1 g2 g3 _ ih => exact .wait g1 g2 g3 (ih ha)
  | read g1 _ ih => exact .read g1 (ih ha)
  | command g1 g2 _ ih => exact .command g1 g2 (ih ha)

theorem dialogue_session (h : Dialogue stream taken sent read exec allowed before acts) (n : Nat) :
    Session stream taken sent read exec allowed (before 0) (firstActs acts n) (before n) := by
  induction n with
  | zero => exact .nil _
  | succ n ih =>
    obtain ⟨s, h0, h1, h2, h3⟩ := h n
    rw [firstActs_succ]
    exact Session.snoc ih h0 h1 h2 h3

theorem reads_mono {δ : Type} (outcome : Res ε α → Option δ) {i j : Nat} (h : i ≤ j) :
    (Act.reads (firstActs acts i)).filterMap outcome <+: (Act.reads (firstActs acts j)).filterMap outcome := by
  induction h with
  | refl => exact List.prefix_rfl
  | @step j _ ih =>
    refine ih.trans ?_
    rw [firstActs_succ, Act.reads, List.filterMap_append, List.filterMap_append]
    exact List.prefix_append _ _

end

section
variable {σ E ε α δ : Type} {c : Cfg} {VS : Type} {k : Controller σ E} {stream : σ → List UInt8}
  {taken : σ → Nat} {sent : σ → List UInt8} {read : Ctl σ ε α} {before : Nat → σ}
  {acts : Nat → Act VS E (Res ε α)} {w : List UInt8 → List UInt8} {outcome : Res ε α → Option δ}
  {decode : List UInt8 → δ}

/-- The bytes received in an endless session. -/
theorem dialogue_stream (hk : Duplex k stream taken sent) (l : Link) {vinto : VS → UInt8}
    (hm : Steps stream taken read w outcome decode)
    (h : Dialogue stream taken sent read (·.exec (linkHeader l) k vinto) (·.Constructible c) before acts)
    {i j : Nat} (hij : i ≤ j) : stream (before i) <+: stream (before j) := by
  induction hij with
  | refl => exact List.prefix_rfl
  | @step j _ ih =>
    obtain ⟨s, h0, h1, -, -⟩ := h j
    refine ih.trans (List.IsPrefix.trans ?_ h1)
    cases ha : acts j with
    | read r =>
      rw [ha] at h0
      exact (hm _ _ _ h0).1
    | command cmd r =>
      rw [ha] at h0
      exact (exec_step hk l h0.1 h0.2).1

/-- In an endless session every packet is reported, and not before some given time. -/
theorem live_dialogue (hk : Duplex k stream taken sent) (l : Link) {vinto : VS → UInt8} {n : Nat}
    (hw : PrefixFree w) (hm : Steps stream taken read w outcome decode)
    (hp : ∀ {s p tail}, ServesNext k stream taken n s → Framed p → pending stream taken s = w p ++ tail →
      outcome (read s).1 ≠ none)
    (h : Dialogue stream taken sent read (·.exec (linkHeader l) k vinto) (·.Constructible c) before acts)
    (hfair : ReadsFairly k stream taken n before acts)
    {packets : List (List UInt8)} (hf : ∀ p ∈ packets, Framed p) {i : Nat}
    (ha : wire w packets <+: (stream (before i)).drop (taken (before 0))) :
    ∃ n, i ≤ n ∧ packets.map decode <+: (Act.reads (firstActs acts n)).filterMap outcome :=
  live_core (decode := decode) hw
    (reported := fun n => (Act.reads (firstActs acts n)).filterMap outcome)
    (arrived := fun n => (stream (before n)).drop (taken (before 0)))
    (pend := fun n => pending stream taken (before n))
    (fun n => by
      obtain ⟨-, ps, h1, h2, -, h4⟩ := history hm (session_history hk l (dialogue_session h n))
      exact ⟨ps, h1, h2, h4⟩)
    (fun hij => prefix_drop (dialogue_stream hk l hm h hij) _) (fun hij => reads_mono outcome hij)
    (fun i => by
      obtain ⟨j, hj, ⟨r, hr⟩, hfj⟩ := hfair i
      refine ⟨j, hj, fun p tail hfp hq => ?_⟩
      have ho := hp hfj hfp hq
      obtain ⟨s, h0, -⟩ := h j
      rw [hr] at h0
      rw [h0] at ho
      simp only [firstActs_succ, Act.reads, List.filterMap_append, List.length_append, List.filterMap_cons, hr,
        List.filterMap_nil]
      cases hc : outcome r with
      | none => exact absurd hc ho
      | some d => simp only [List.length_singleton]; omega) hf ha

end

/-! ## A controller that answers -/

theorem responder_duplex : Duplex responder (·.queue.1) (·.queue.2) (·.sent) where
  delivers := ⟨modem_duplex.delivers.peek, modem_duplex.delivers.readInto⟩
  writes := ⟨fun _ _ _ _ => rfl, fun _ _ _ _ h => (by cases h), fun _ _ _ h => (by cases h)⟩
  write _ _ _ := ⟨List.prefix_append _ _, rfl⟩
  peek _ _ := rfl
  readInto _ _ := rfl

theorem responder_prompt : Prompt responder (·.queue.1) (·.queue.2) :=
  ⟨fun n s h => fifo_prompt.peek n s.queue h, fun n s h => fifo_prompt.readInto n s.queue h⟩

theorem responder_quiet : Quiet responder (·.queue.1) (·.queue.2) :=
  ⟨fun n s => fifo_quiet.peek n s.queue, fun n s => fifo_quiet.readInto n s.queue⟩

section
variable {c : Cfg} {V : Vendor} {vinto : V.VStatus → UInt8} {script : Nat → Option (Command V.VStatus)}

theorem scripted_dialogue (hs : ∀ i cmd, script i = some cmd → cmd.Constructible c) :
    Dialogue (·.queue.1) (·.queue.2) (·.sent) (Uart.read c V responder)
      (·.exec uartHeader responder vinto) (·.Constructible c) (scripted c V vinto script)
      (scriptedActs c V vinto script) := by
  intro i
  cases h : script i with
  | none =>
    refine ⟨(Uart.read c V responder (scripted c V vinto script i)).2, ?_, ?_, ?_, ?_⟩ <;>
      simp only [scriptedActs, scripted, h, List.prefix_rfl]
  | some cmd =>
    refine ⟨(cmd.exec uartHeader responder vinto (scripted c V vinto script i)).2, ?_, ?_, ?_, ?_⟩
    · simp only [scriptedActs, h]
      exact ⟨hs i cmd h, trivial⟩
    all_goals simp only [scripted, h, List.prefix_rfl]

/-- The answers to the commands so far are on the wire. -/
theorem scripted_answers (hs : ∀ i cmd, script i = some cmd → cmd.Constructible c) (n : Nat) :
    (scripted c V vinto script n).queue.1 =
      uartBytes ((Act.accepted (firstActs (scriptedActs c V vinto script) n)).map fun p =>
        frame 0x0F (0x00 :: 0x01 :: le16 p.1)) := by
  induction n with
  | zero => rfl
  | succ n ih =>
    rw [firstActs_succ, Act.accepted, List.filterMap_append, List.map_append]
    cases h : script n with
    | none =>
      simp only [scripted, h, scriptedActs, List.filterMap_cons, List.filterMap_nil, List.map_nil, List.append_nil]
      rw [uart_quiet responder_quiet]
      exact ih
    | some cmd =>
      simp only [scripted, h, scriptedActs, List.filterMap_cons, List.filterMap_nil]
      cases hr : cmdReject (E := Unit) cmd with
      | some e =>
        have he := C40_rejected c .uart responder vinto cmd (hs n cmd h) e hr (scripted c V vinto script n)
        change cmd.exec uartHeader responder vinto _ = _ at he
        rw [he]
        simp only [List.map_nil, List.append_nil]
        exact ih
      | none =>
        have he := (C39_one_framed_write c .uart responder vinto cmd (hs n cmd h) hr (scripted c V vinto script n)).1
        change cmd.exec uartHeader responder vinto _ = _ at he
        rw [he]
        simp only [responder, Res.mapErr, List.map_cons, List.map_nil, uartBytes, List.map_append, List.flatten_append]
        rw [ih]
        rfl

theorem scripted_all (hs : ∀ i cmd, script i = some cmd → cmd.Constructible c)
    (hd : ∀ o, ∃ e, Event.new c V (frame 0x0F (0x00 :: 0x01 :: le16 o)) = .ok e) :
    AnswersAll c V (·.queue.1) (·.queue.2) (·.sent) UartCarries uartBytes id (scripted c V vinto script) := by
  intro a new commands hn hp i o args hi
  obtain ⟨h1, h2⟩ := session_sent responder_duplex .uart (uart_sends_nothing responder_duplex)
    (dialogue_session (scripted_dialogue (vinto := vinto) hs) a)
  obtain rfl := List.append_cancel_left (hn.symm.trans h1)
  obtain rfl := Option.some.inj ((parse_all _ h2).symm.trans hp)
  obtain ⟨e, he⟩ := hd o
  refine ⟨a, (Act.accepted (firstActs (scriptedActs c V vinto script) a)).map fun p =>
    frame 0x0F (0x00 :: 0x01 :: le16 p.1), frame 0x0F (0x00 :: 0x01 :: le16 o), e, ?_, ?_, ?_, .status, he⟩
  · intro p hp
    obtain ⟨q, -, rfl⟩ := List.mem_map.mp hp
    exact ⟨_, _, by simp [le16], rfl⟩
  · show _ <+: List.drop _ (scripted c V vinto script a).queue.1
    rw [scripted_answers hs a]
    exact List.prefix_rfl
  · rw [id, List.getElem?_map, hi]
    rfl

end

end Bt
