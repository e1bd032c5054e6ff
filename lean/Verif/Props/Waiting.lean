import Verif.Lemmas.Waiting
import Verif.Props.Dialogue
import Verif.Props.IntervalBytes

/-! # C101: a host that waits for answers -/

namespace Bt

open Spec

/-! ## Answers -/

theorem le16_pair (o : UInt16) : le16 o = [UInt8.ofNat o.toNat, UInt8.ofNat (o.toNat / 256)] := by
  simp [le16, le, List.range_succ]

theorem properOpcode_le16 {o : UInt16} {a b : UInt8} (h : le16 o = [a, b]) :
    properOpcode a b = if o = 0 then none else some o := by
  have hv : UInt16.ofNat (leVal [a, b]) = o := by rw [← h, leVal_le16]; simp
  have hz : (a = 0 ∧ b = 0) ↔ o = 0 := by
    constructor
    · rintro ⟨rfl, rfl⟩; exact hv.symm
    · rintro rfl
      have : le16 0 = [0, 0] := rfl
      rw [this] at h
      simp only [List.cons.injEq, and_true] at h
      exact ⟨h.1.symm, h.2.symm⟩
  rw [properOpcode, hv]
  by_cases h0 : o = 0
  · rw [if_pos (hz.mpr h0), if_pos h0]
  · rw [if_neg (fun h => h0 (hz.mp h)), if_neg h0]

/-- `answeredOpcode` finds the answers: a packet with a proper opcode is an answer to it exactly if it answers it. -/
theorem answeredOpcode_iff {p : List UInt8} (hf : Framed p) (o : UInt16) :
    answeredOpcode p = some o ↔ o ≠ 0 ∧ Answer o p := by
  constructor
  · intro h
    obtain ⟨code, ps, hl, rfl⟩ := hf
    rcases ps with _ | ⟨x, _ | ⟨a, _ | ⟨b, rest⟩⟩⟩
    iterate 3 exact absurd h (by simp [frame, answeredOpcode])
    have e16 : ∀ u v : UInt8, le16 (UInt16.ofNat (leVal [u, v])) = [u, v] := by
      intro u v
      have hu := u.toNat_lt
      have hv := v.toNat_lt
      have e : (UInt16.ofNat (u.toNat + 256 * v.toNat)).toNat = u.toNat + 256 * v.toNat := by
        rw [UInt16.toNat_ofNat']; omega
      rw [le16_pair]
      simp only [leVal, Nat.mul_zero, Nat.add_zero, e, List.cons.injEq, and_true]
      constructor
      · apply UInt8.toNat_inj.mp; rw [UInt8.toNat_ofNat']; omega
      · apply UInt8.toNat_inj.mp; rw [UInt8.toNat_ofNat']; omega
    have proper : ∀ u v : UInt8, properOpcode u v = some o → o ≠ 0 ∧ le16 o = [u, v] := by
      intro u v h
      rw [properOpcode_le16 (e16 u v)] at h
      split at h
      · cases h
      · next h0 => cases h; exact ⟨h0, e16 u v⟩
    simp only [frame, answeredOpcode] at h
    split at h
    · next hc =>
      subst hc
      obtain ⟨h0, ho⟩ := proper a b h
      refine ⟨h0, ?_⟩
      have : x :: a :: b :: rest = x :: le16 o ++ rest := by rw [ho]; rfl
      rw [this]
      exact .complete (by simp only [List.length_cons] at hl; omega)
    · split at h
      · next hc =>
        subst hc
        split at h
        · next d =>
          obtain ⟨h0, ho⟩ := proper b d h
          refine ⟨h0, ?_⟩
          have : [x, a, b, d] = x :: a :: le16 o := by rw [ho]
          rw [this]
          exact .status
        · cases h
      · cases h
  · rintro ⟨h0, h⟩
    cases h with
    | @complete n ps hl =>
      have := properOpcode_le16 (o := o) (a := UInt8.ofNat o.toNat) (b := UInt8.ofNat (o.toNat / 256)) (le16_pair o)
      simp only [frame, le16_pair, List.cons_append, answeredOpcode, if_true]
      rw [this, if_neg h0]
    | @status st n =>
      have := properOpcode_le16 (o := o) (a := UInt8.ofNat o.toNat) (b := UInt8.ofNat (o.toNat / 256)) (le16_pair o)
      simp only [frame, le16_pair, answeredOpcode]
      rw [if_neg (by decide), if_pos trivial, this, if_neg h0]

example : answeredOpcode [0x0F, 4, 0, 1, 0x18, 0x20] = some 0x2018 ∧ answeredOpcode [0x0E, 4, 1, 0x03, 0x0C, 0] = some 0x0C03 ∧
    answeredOpcode [0x0E, 3, 1, 0, 0] = none ∧ answeredOpcode [0x10, 1, 0x2A] = none := by decide

/-- What is decoded as an answer is an answer. -/
theorem isAnswer_answered {c : Cfg} {V : Vendor} {p : List UInt8} {e : V.Ev} (h : Event.new c V p = .ok e)
    (ha : IsAnswer e = true) : answeredOpcode p ≠ none := by
  obtain ⟨code, ps, rfl, hl, hs⟩ := (C09_sound_and_complete c V _ _).mp h
  have hf : Framed (frame code ps) := ⟨code, ps, hl, rfl⟩
  have done : ∀ o, o ≠ 0 → Answer o (frame code ps) → answeredOpcode (frame code ps) ≠ none := by
    intro o h0 ho
    rw [(answeredOpcode_iff hf o).mpr ⟨h0, ho⟩]
    exact Option.some_ne_none _
  cases hs with
  | @commandComplete n o ps r hr =>
    rcases returns_opcode c V hr with ⟨rfl, -⟩ | ⟨-, hr⟩
    · cases ha
    · obtain ⟨x, -, hm⟩ := answered_mem r _ hr
      exact done o (table_standard _ hm).2 (.complete (by simp [le16, le] at hl; omega))
  | @commandCompleteVendor n o ps r hv hr =>
    refine done o ?_ (.complete (by simp [le16, le] at hl; omega))
    rintro rfl
    exact absurd hv (by decide)
  | @commandStatus st x n o h1 =>
    refine done o ?_ .status
    rintro rfl
    cases ha
  | _ => cases ha

theorem api_opcode {VS : Type} (cmd : Command VS) : cmdOpcode cmd ≠ 0 := (table_standard _ (sent_mem cmd)).2

/-! ## Either transport -/

section
variable {VS E ρ : Type} {c : Cfg} {V : Vendor} {outcome : ρ → Option (Res V.EvErr V.Ev)} {acts : Nat → Act VS E ρ}
  {w : List UInt8 → List UInt8} {arrived : Nat → List UInt8} {read : Nat → List (List UInt8)}

theorem told_at_most (hread : ∀ n, (Act.reads (firstActs acts n)).filterMap outcome = (read n).map (Event.new c V))
    (n : Nat) : (toldBy outcome (firstActs acts n)).length ≤ (answersIn (read n)).length := by
  rw [toldBy, hread n, answersTold, List.filterMap_map]
  refine filterMap_length_le _ _ _ fun p _ hp => ?_
  simp only [Function.comp] at hp
  split at hp
  · next e he =>
    split at hp
    · next ha => exact isAnswer_answered he ha
    · exact absurd rfl hp
  · exact absurd rfl hp

/-- The answers told are the answers to the first commands. -/
theorem told_paired (hs : OneAtATime outcome acts) (hw : PrefixFree w)
    (hmono : ∀ {i j}, i ≤ j → arrived i <+: arrived j)
    (hread : ∀ n, (∀ p ∈ read n, Framed p) ∧
      (Act.reads (firstActs acts n)).filterMap outcome = (read n).map (Event.new c V) ∧
      wire w (read n) <+: arrived n)
    (hcount : ∀ n packets, (∀ p ∈ packets, Framed p) → wire w packets <+: arrived n →
      ∀ o, (answersIn packets).count o ≤ ((Act.succeeded (firstActs acts n)).map cmdOpcode).count o)
    (n i : Nat) (e : V.Ev) (hi : (toldBy outcome (firstActs acts n))[i]? = some e) :
    ∃ cmd, (Act.succeeded (firstActs acts n))[i]? = some cmd ∧ TellsAnswer cmd e := by
  have htold := told_at_most (c := c) fun n => (hread n).2.1
  induction n generalizing i e with
  | zero => cases hi
  | succ n ih =>
    have more : ∀ {cmd}, (Act.succeeded (firstActs acts n))[i]? = some cmd →
        (Act.succeeded (firstActs acts (n + 1)))[i]? = some cmd := by
      intro cmd h
      rw [firstActs_succ, succeeded_append, List.getElem?_append_left (List.getElem?_eq_some_iff.mp h).1, h]
    by_cases hlt : i < (toldBy outcome (firstActs acts n)).length
    · rw [firstActs_succ, toldBy_append, List.getElem?_append_left hlt] at hi
      obtain ⟨cmd, h1, h2⟩ := ih i e hi
      exact ⟨cmd, more h1, h2⟩
    · have hge := Nat.le_of_not_lt hlt
      rw [firstActs_succ, toldBy_append, List.getElem?_append_right hge] at hi
      cases ha : acts n with
      | command cmd r => rw [ha] at hi; cases hi
      | read r =>
        rw [ha] at hi
        have hone : toldBy outcome [.read (VS := VS) (E := E) r] = answersTold (outcome r).toList := by
          rw [toldBy]
          cases ho : outcome r <;> simp [Act.reads, ho]
        rw [hone] at hi
        cases ho : outcome r with
        | none => rw [ho] at hi; cases hi
        | some d =>
          rw [ho] at hi
          have hd : d = .ok e ∧ IsAnswer e = true ∧ i = (toldBy outcome (firstActs acts n)).length := by
            simp only [answersTold, Option.toList, List.filterMap_cons, List.filterMap_nil] at hi
            split at hi
            · cases hi
            · next b hb =>
              split at hb
              · split at hb
                · next hx =>
                  cases hb
                  rcases Nat.eq_zero_or_pos (i - (toldBy outcome (firstActs acts n)).length) with h0 | h0
                  · rw [h0] at hi
                    cases hi
                    exact ⟨rfl, hx, by omega⟩
                  · rw [List.getElem?_eq_none (by simp only [List.length_singleton]; omega)] at hi
                    cases hi
                · cases hb
              · cases hb
          obtain ⟨rfl, hx, hin⟩ := hd
          obtain ⟨f1, o1, p1⟩ := hread n
          obtain ⟨f2, o2, p2⟩ := hread (n + 1)
          obtain ⟨u, hu⟩ := p2
          obtain ⟨v, hv⟩ := p1.trans (hmono (Nat.le_succ n))
          have hlen : (read (n + 1)).length = (read n).length + 1 := by
            have e1 := congrArg List.length o1
            have e2 := congrArg List.length o2
            rw [List.length_map] at e1 e2
            rw [← e1, ← e2, firstActs_succ, ha]
            simp [Act.reads, ho]
          have hpre : read n <+: read (n + 1) := by
            rcases wire_comparable hw _ _ v u f1 f2 (hv.trans hu.symm) with h | h
            · exact h
            · have := h.length_le
              omega
          obtain ⟨new, hnew⟩ := hpre
          rw [← hnew, List.length_append] at hlen
          obtain ⟨p, rfl⟩ := List.length_eq_one_iff.mp (by omega : new.length = 1)
          have hdec : Event.new c V p = .ok e := by
            rw [← hnew, List.map_append, ← o1, firstActs_succ, ha] at o2
            simp only [Act.reads, List.filterMap_append, List.filterMap_cons, List.filterMap_nil, ho] at o2
            have := List.append_cancel_left o2
            simpa using this.symm
          have hans := isAnswer_answered hdec hx
          obtain ⟨o, hao⟩ := Option.ne_none_iff_exists'.mp hans
          have hfp : Framed p := f2 p (by rw [← hnew]; simp)
          have hcmds := answers_prefix api_opcode hs hw hmono (fun n => ⟨(hread n).1, (hread n).2.2⟩) htold hcount (n + 1)
            (read (n + 1)) f2 (hread (n + 1)).2.2
          have hsucc : Act.succeeded (firstActs acts (n + 1)) = Act.succeeded (firstActs acts n) := by
            rw [firstActs_succ, succeeded_append, ha]
            exact List.append_nil _
          have hsplit : answersIn (read (n + 1)) = answersIn (read n) ++ [o] := by
            rw [← hnew, answersIn, List.filterMap_append, ← answersIn, List.filterMap_cons, hao]
            rfl
          rw [hsucc, hsplit] at hcmds
          have l1 := hcmds.length_le
          rw [List.length_append, List.length_singleton, List.length_map] at l1
          have l2 := told_but_one api_opcode hs n
          have l3 := htold n
          have hi' : i = (answersIn (read n)).length := by omega
          obtain ⟨t, ht⟩ := hcmds
          have hat : ((Act.succeeded (firstActs acts n)).map cmdOpcode)[i]? = some o := by
            rw [← ht, hi', List.append_assoc, List.getElem?_append_right (Nat.le_refl _), Nat.sub_self]
            rfl
          rw [List.getElem?_map] at hat
          obtain ⟨cmd, h1, h2⟩ := Option.map_eq_some_iff.mp hat
          refine ⟨cmd, more h1, answer_decoded c V ?_ hdec⟩
          rw [h2]
          exact ((answeredOpcode_iff hfp o).mp hao).2

end

section
variable {σ E : Type} {c : Cfg} {V : Vendor} {k : Controller σ E}
  {stream : σ → List UInt8} {taken : σ → Nat} {sent : σ → List UInt8} {before : Nat → σ}
  {read : Ctl σ ε α} {w : List UInt8 → List UInt8} {outcome : Res ε α → Option (Res V.EvErr V.Ev)}
  {acts : Nat → Act V.VStatus E (Res ε α)} {vinto : V.VStatus → UInt8}

theorem dialogue_read (hk : Duplex k stream taken sent) (l : Link)
    (hm : Steps stream taken read w outcome (Event.new c V))
    (h : Dialogue stream taken sent read (·.exec (linkHeader l) k vinto) (·.Constructible c) before acts) :
    ∃ read : Nat → List (List UInt8), ∀ n, (∀ p ∈ read n, Framed p) ∧
      (Act.reads (firstActs acts n)).filterMap outcome = (read n).map (Event.new c V) ∧
      wire w (read n) <+: (stream (before n)).drop (taken (before 0)) ∧
      taken (before n) = taken (before 0) + (wire w (read n)).length := by
  refine Classical.axiomOfChoice (r := fun n ps => (∀ p ∈ ps, Framed p) ∧
      (Act.reads (firstActs acts n)).filterMap outcome = ps.map (Event.new c V) ∧
      wire w ps <+: (stream (before n)).drop (taken (before 0)) ∧
      taken (before n) = taken (before 0) + (wire w ps).length) fun n => ?_
  obtain ⟨-, ps, h1, h2, h3, h4⟩ := history hm (session_history hk l (dialogue_session h n))
  exact ⟨ps, h1, h2, by rw [h4]; exact List.prefix_append _ _, h3⟩

/-- Packets that are not shorter than those read begin with them. -/
theorem read_before (hw : PrefixFree w) {ps packets : List (List UInt8)} {bytes : List UInt8} {n : Nat}
    (h1 : ∀ p ∈ ps, Framed p) (hf : ∀ p ∈ packets, Framed p) (h3 : wire w ps <+: bytes) (hp : wire w packets <+: bytes)
    (ht : n + (wire w ps).length ≤ n + (wire w packets).length) : ps <+: packets := by
  obtain ⟨u, hu⟩ := hp
  obtain ⟨v, hv⟩ := h3
  rcases wire_comparable hw _ _ v u h1 hf (hv.trans hu.symm) with hc | hc
  · exact hc
  · obtain ⟨t, rfl⟩ := hc
    have hlen : (wire w t).length = 0 := by
      have : wire w (packets ++ t) = wire w packets ++ wire w t := by
        rw [wire, List.map_append, List.flatten_append]; rfl
      rw [this, List.length_append] at ht
      omega
    cases t with
    | nil => rw [List.append_nil]; exact List.prefix_rfl
    | cons p t =>
      have hnil : wire w (p :: t) = [] := List.length_eq_zero_iff.mp hlen
      have hwp : w p = [] := (List.append_eq_nil_iff.mp hnil).1
      have hfp := h1 p (by simp)
      have same : ∀ x, p = frame x [] := fun x =>
        (hw p (frame x []) (w (frame x [])) [] hfp ⟨_, _, by simp, rfl⟩ (by rw [hwp, List.append_nil, List.nil_append])).1
      exact absurd ((same 0).symm.trans (same 1)) (by decide)

theorem no_overrun (hk : Duplex k stream taken sent) (l : Link) (hw : PrefixFree w)
    (hm : Steps stream taken read w outcome (Event.new c V))
    (h : Dialogue stream taken sent read (·.exec (linkHeader l) k vinto) (·.Constructible c) before acts)
    (hs : OneAtATime outcome acts) {n : Nat} {packets : List (List UInt8)} (hf : ∀ p ∈ packets, Framed p)
    (hp : wire w packets <+: (stream (before n)).drop (taken (before 0)))
    (ht : taken (before n) ≤ taken (before 0) + (wire w packets).length) :
    (Act.accepted (firstActs acts n)).length ≤ (answersIn packets).length + 1 := by
  obtain ⟨read, hread⟩ := dialogue_read hk l hm h
  obtain ⟨h1, -, h3, h4⟩ := hread n
  have hpre := answersIn_mono (read_before hw h1 hf h3 hp (by rw [← h4]; exact ht))
  have h5 := told_but_one api_opcode hs n
  have h6 := told_at_most (c := c) (fun n => (hread n).2.1) n
  have h7 := hpre.length_le
  rw [accepted_succeeded, List.length_map]
  omega

theorem only_count (hk : Duplex k stream taken sent) (l : Link) (hread : ∀ s, sent (read s).2 = sent s)
    {carries : List UInt8 → List (UInt16 × List UInt8) → Prop} {ws : List (List UInt8) → List UInt8}
    (hc : ∀ ps : List (UInt16 × List UInt8), (∀ p ∈ ps, p.2.length < 256) → carries (ps.map (cmdBytes l)).flatten ps)
    (hws : ∀ ps, ws ps = wire w ps)
    (h : Dialogue stream taken sent read (·.exec (linkHeader l) k vinto) (·.Constructible c) before acts)
    (ho : AnswersOnly stream taken sent carries ws before) (n : Nat) (packets : List (List UInt8))
    (hf : ∀ p ∈ packets, Framed p) (hp : wire w packets <+: (stream (before n)).drop (taken (before 0))) (o : UInt16) :
    (answersIn packets).count o ≤ ((Act.succeeded (firstActs acts n)).map cmdOpcode).count o := by
  obtain ⟨h1, h2⟩ := session_sent hk l hread (dialogue_session h n)
  have := ho n _ _ packets h1 (hc _ h2) hf (by rw [hws]; exact hp) o
  rw [accepted_succeeded, List.map_map] at this
  exact this

end

/-! ## A host and a controller that take turns -/

theorem scripted_statuses (ps : List (UInt16 × List UInt8)) : (∀ p ∈ ps, p.1 ≠ 0) →
    answersIn (ps.map fun p => frame 0x0F (0x00 :: 0x01 :: le16 p.1)) = ps.map Prod.fst := by
  induction ps with
  | nil => exact fun _ => rfl
  | cons p ps ih =>
    intro h
    have hp := (answeredOpcode_iff (p := frame 0x0F (0x00 :: 0x01 :: le16 p.1)) ⟨_, _, by simp [le16], rfl⟩ p.1).mpr
      ⟨h p (.head _), .status⟩
    rw [List.map_cons, answersIn, List.filterMap_cons, hp]
    exact congrArg _ (ih fun q hq => h q (.tail _ hq))

theorem scripted_only {c : Cfg} {V : Vendor} {vinto : V.VStatus → UInt8} {script : Nat → Option (Command V.VStatus)}
    (hs : ∀ i cmd, script i = some cmd → cmd.Constructible c) :
    AnswersOnly (·.queue.1) (·.queue.2) (·.sent) UartCarries uartBytes (scripted c V vinto script) := by
  intro n new commands packets hn hc hf hp o
  obtain ⟨h1, h2⟩ := session_sent responder_duplex .uart (uart_sends_nothing responder_duplex)
    (dialogue_session (scripted_dialogue (vinto := vinto) hs) n)
  obtain rfl := List.append_cancel_left (hn.symm.trans h1)
  obtain rfl := Option.some.inj ((parse_all _ h2).symm.trans hc)
  have hp : uartBytes packets <+: (scripted c V vinto script n).queue.1 := hp
  rw [scripted_answers hs n] at hp
  obtain ⟨t, ht⟩ := hp
  have hpre := wire_prefix prefixFree_uart packets _ t [] hf
    (fun q hq => by obtain ⟨p, -, rfl⟩ := List.mem_map.mp hq; exact ⟨_, _, by simp [le16], rfl⟩)
    (fun p u _ h => by cases h) (ht.trans (List.append_nil _).symm)
  have := (answersIn_mono hpre).sublist.count_le o
  rw [scripted_statuses _ (by
    intro p hp
    rw [accepted_succeeded] at hp
    obtain ⟨cmd, -, rfl⟩ := List.mem_map.mp hp
    exact api_opcode cmd)] at this
  exact this

theorem turns_allowed (c : Cfg) (i : Nat) (cmd : Command demoVendor.VStatus) (h : turns i = some cmd) :
    cmd.Constructible c := by
  unfold turns at h
  split at h <;> cases h
  trivial

theorem turns_states (vinto : demoVendor.VStatus → UInt8) (j : Nat) :
    let s := scripted ⟨false, false⟩ demoVendor vinto turns (2 * j)
    s.queue.1.length = s.queue.2 ∧
    scriptedActs ⟨false, false⟩ demoVendor vinto turns (2 * j) = .command .reset (.ok ()) ∧
    scriptedActs ⟨false, false⟩ demoVendor vinto turns (2 * j + 1) =
      .read (.ok (.event (.commandStatus ⟨.success, 1, ⟨0x0C03⟩⟩))) := by
  have t0 : ∀ j, turns (VS := demoVendor.VStatus) (2 * j) = some .reset := fun j => by simp [turns]
  have t1 : ∀ j, turns (VS := demoVendor.VStatus) (2 * j + 1) = none := fun j => by simp [turns]
  have main : ∀ j, let s := scripted ⟨false, false⟩ demoVendor vinto turns (2 * j)
      s.queue.1.length = s.queue.2 →
      ∃ s', Uart.read ⟨false, false⟩ demoVendor responder
          (scripted ⟨false, false⟩ demoVendor vinto turns (2 * j + 1)) =
        (.ok (.event (.commandStatus ⟨.success, 1, ⟨0x0C03⟩⟩)), s') ∧ s'.queue.1.length = s'.queue.2 := by
    intro j s hl
    have hs : scripted ⟨false, false⟩ demoVendor vinto turns (2 * j + 1) =
        ⟨(s.queue.1 ++ uartBytes [[0x0F, 4, 0, 1, 0x03, 0x0C]], s.queue.2), s.sent ++ [1, 0x03, 0x0C, 0]⟩ := by
      simp only [scripted, t0]
      rfl
    rw [hs]
    obtain ⟨s', h1, -, h3⟩ := uart_progress (c := ⟨false, false⟩) (V := demoVendor) responder_duplex.delivers
      responder_prompt (s := ⟨(s.queue.1 ++ uartBytes [[0x0F, 4, 0, 1, 0x03, 0x0C]], s.queue.2), s.sent ++ [1, 0x03, 0x0C, 0]⟩)
      (code := 0x0F) (ps := [0, 1, 0x03, 0x0C]) (tail := []) (by decide)
      (by simp only [pending, ← hl, List.drop_left]; rfl)
    have h2 := uart_quiet (c := ⟨false, false⟩) (V := demoVendor) responder_quiet
      ⟨(s.queue.1 ++ uartBytes [[0x0F, 4, 0, 1, 0x03, 0x0C]], s.queue.2), s.sent ++ [1, 0x03, 0x0C, 0]⟩
    rw [h1] at h2
    refine ⟨s', h1, ?_⟩
    rw [h2, h3, List.length_append, hl]
    rfl
  have hl : ∀ j, (scripted ⟨false, false⟩ demoVendor vinto turns (2 * j)).queue.1.length =
      (scripted ⟨false, false⟩ demoVendor vinto turns (2 * j)).queue.2 := by
    intro j
    induction j with
    | zero => rfl
    | succ j ih =>
      obtain ⟨s', h1, h2⟩ := main j ih
      have : scripted ⟨false, false⟩ demoVendor vinto turns (2 * (j + 1)) = s' := by
        show scripted ⟨false, false⟩ demoVendor vinto turns (2 * j + 1 + 1) = s'
        rw [scripted]
        simp only [t1, h1]
      rw [this]
      exact h2
  refine ⟨hl j, ?_, ?_⟩
  · simp only [scriptedActs, t0]
    rfl
  · obtain ⟨s', h1, -⟩ := main j (hl j)
    simp only [scriptedActs, t1, h1]

theorem turns_waits (vinto : demoVendor.VStatus → UInt8) :
    OneAtATime uartOutcome (scriptedActs ⟨false, false⟩ demoVendor vinto turns) := by
  intro n cmd r hn earlier cmd' later he
  have hm : (firstActs (scriptedActs ⟨false, false⟩ demoVendor vinto turns) n)[earlier.length]? =
      some (.command cmd' (.ok ())) := by
    rw [he, List.getElem?_append_right (Nat.le_refl _), Nat.sub_self]
    rfl
  have hlen : earlier.length < n := by
    have := (List.getElem?_eq_some_iff.mp hm).1
    simpa [firstActs] using this
  have hact : ∀ m, m < n → (firstActs (scriptedActs ⟨false, false⟩ demoVendor vinto turns) n)[m]? =
      some (scriptedActs ⟨false, false⟩ demoVendor vinto turns m) := by
    intro m hm
    rw [firstActs, List.getElem?_map, List.getElem?_range hm]
    rfl
  rw [hact _ hlen] at hm
  have even : ∀ m cmd r, scriptedActs ⟨false, false⟩ demoVendor vinto turns m = .command cmd r → ∃ j, m = 2 * j := by
    intro m cmd r h
    rcases Nat.even_or_odd' m with ⟨j, rfl | rfl⟩
    · exact ⟨j, rfl⟩
    · rw [(turns_states vinto j).2.2] at h
      cases h
  obtain ⟨i, hi⟩ := even _ _ _ (Option.some.inj hm)
  obtain ⟨j, rfl⟩ := even _ _ _ hn
  have hnext := hact (2 * i + 1) (by omega)
  rw [(turns_states vinto i).2.2, he, List.getElem?_append_right (by omega), hi,
    show 2 * i + 1 - 2 * i = 1 by omega] at hnext
  rw [hi, (turns_states vinto i).2.1] at hm
  cases hm
  exact ⟨_, _, List.mem_of_getElem? (i := 0) hnext, rfl, .inr ⟨.success, 1, rfl⟩⟩

/-! ## C101 -/

section
variable {σ E : Type} {c : Cfg} {V : Vendor} {k : Controller σ E}
  {stream : σ → List UInt8} {taken : σ → Nat} {sent : σ → List UInt8} {before : Nat → σ}

/-- **C101.** Over a UART, a host that waits for the answer to each command before it issues the next never has two
commands without answer on the wire, whatever the controller sends and whatever fails: at any time, of the commands
sent all but at most one are answered by the packets received (if those include the ones read). -/
theorem C101_uart_no_overrun (hk : Duplex k stream taken sent)
    {acts : Nat → Act V.VStatus E (Res (Nb (UartError E V.VErr)) (UartPacket V))} (vinto : V.VStatus → UInt8)
    (h : Dialogue stream taken sent (Uart.read c V k) (·.exec uartHeader k vinto) (·.Constructible c) before acts)
    (hs : OneAtATime uartOutcome acts) {n : Nat} {new : List UInt8} {commands : List (UInt16 × List UInt8)}
    (hn : sent (before n) = sent (before 0) ++ new) (hc : UartCarries new commands)
    {packets : List (List UInt8)} (hf : ∀ p ∈ packets, Framed p)
    (hp : uartBytes packets <+: (stream (before n)).drop (taken (before 0)))
    (ht : taken (before n) ≤ taken (before 0) + (uartBytes packets).length) :
    commands.length ≤ (answersIn packets).length + 1 := by
  obtain ⟨-, new', hs', hc'⟩ := C64_uart hk vinto (dialogue_session h n)
  obtain rfl := List.append_cancel_left (hn.symm.trans hs')
  obtain rfl := Option.some.inj (hc.symm.trans hc')
  exact no_overrun hk .uart prefixFree_uart (uart_steps hk.delivers) h hs hf hp ht

/-- Two commands were sent and one packet was read: what the theorem asks of `new`, `commands` and `packets` can be had. -/
example (vinto : demoVendor.VStatus → UInt8) :
    ∃ new packets, (scripted ⟨false, false⟩ demoVendor vinto turns 3).sent = [] ++ new ∧
      UartCarries new [(0x0C03, []), (0x0C03, [])] ∧ (∀ p ∈ packets, Framed p) ∧ packets.length = 1 ∧
      uartBytes packets <+: (scripted ⟨false, false⟩ demoVendor vinto turns 3).queue.1 ∧
      (scripted ⟨false, false⟩ demoVendor vinto turns 3).queue.2 ≤ 0 + (uartBytes packets).length := by
  obtain ⟨⟨packets, h1, h2, h3, h4⟩, new, h5, h6⟩ := C64_uart responder_duplex vinto
    (dialogue_session (scripted_dialogue (vinto := vinto) (turns_allowed ⟨false, false⟩)) 3)
  have h0 := (turns_states vinto 0).2
  rw [show firstActs (scriptedActs ⟨false, false⟩ demoVendor vinto turns) 3 =
    [scriptedActs ⟨false, false⟩ demoVendor vinto turns (2 * 0), scriptedActs ⟨false, false⟩ demoVendor vinto turns (2 * 0 + 1),
      scriptedActs ⟨false, false⟩ demoVendor vinto turns (2 * 1)] from rfl, h0.1, h0.2, (turns_states vinto 1).2.1] at h2 h6
  refine ⟨new, packets, h5, h6, h1, ?_, ?_, Nat.le_of_eq h3⟩
  · have := congrArg List.length h2
    rw [List.length_map] at this
    exact this.symm
  · have h4 : (scripted ⟨false, false⟩ demoVendor vinto turns 3).queue.1 = _ := h4
    rw [h4]
    exact List.prefix_append _ _

/-- If the controller answers only commands that it received, none of them twice, the answers come in the order of
the commands. -/
theorem C101_uart_in_order (hk : Duplex k stream taken sent)
    {acts : Nat → Act V.VStatus E (Res (Nb (UartError E V.VErr)) (UartPacket V))} (vinto : V.VStatus → UInt8)
    (h : Dialogue stream taken sent (Uart.read c V k) (·.exec uartHeader k vinto) (·.Constructible c) before acts)
    (hs : OneAtATime uartOutcome acts) (ho : AnswersOnly stream taken sent UartCarries uartBytes before)
    {n : Nat} {new : List UInt8} {commands : List (UInt16 × List UInt8)}
    (hn : sent (before n) = sent (before 0) ++ new) (hc : UartCarries new commands)
    {packets : List (List UInt8)} (hf : ∀ p ∈ packets, Framed p)
    (hp : uartBytes packets <+: (stream (before n)).drop (taken (before 0))) :
    answersIn packets <+: commands.map Prod.fst := by
  obtain ⟨-, new', hs', hc'⟩ := C64_uart hk vinto (dialogue_session h n)
  obtain rfl := List.append_cancel_left (hn.symm.trans hs')
  obtain rfl := Option.some.inj (hc.symm.trans hc')
  obtain ⟨read, hread⟩ := dialogue_read hk .uart (uart_steps hk.delivers) h
  rw [accepted_succeeded, List.map_map]
  exact answers_prefix api_opcode hs prefixFree_uart
    (arrived := fun n => (stream (before n)).drop (taken (before 0)))
    (fun hij => prefix_drop (dialogue_stream hk .uart (uart_steps (c := c) (V := V) hk.delivers) h hij) _)
    (fun n => ⟨(hread n).1, (hread n).2.2.1⟩) (told_at_most (c := c) fun n => (hread n).2.1)
    (only_count hk .uart (uart_sends_nothing hk) (fun ps hps => parse_all ps hps) (fun _ => rfl) h ho) n packets hf hp

/-- And the host can pair them without looking: the `i`-th answer that it reads tells that the `i`-th of its commands
that returned Ok was answered; and of those commands at most one is without an answer read. -/
theorem C101_uart_paired (hk : Duplex k stream taken sent)
    {acts : Nat → Act V.VStatus E (Res (Nb (UartError E V.VErr)) (UartPacket V))} (vinto : V.VStatus → UInt8)
    (h : Dialogue stream taken sent (Uart.read c V k) (·.exec uartHeader k vinto) (·.Constructible c) before acts)
    (hs : OneAtATime uartOutcome acts) (ho : AnswersOnly stream taken sent UartCarries uartBytes before) (n : Nat) :
    (∀ (i : Nat) (e : V.Ev), (answersTold ((Act.reads (firstActs acts n)).filterMap uartOutcome))[i]? = some e →
      ∃ cmd, (Act.succeeded (firstActs acts n))[i]? = some cmd ∧ TellsAnswer cmd e) ∧
    (Act.succeeded (firstActs acts n)).length ≤
      (answersTold ((Act.reads (firstActs acts n)).filterMap uartOutcome)).length + 1 := by
  obtain ⟨read, hread⟩ := dialogue_read hk .uart (uart_steps hk.delivers) h
  refine ⟨told_paired hs prefixFree_uart (arrived := fun n => (stream (before n)).drop (taken (before 0)))
    (fun hij => prefix_drop (dialogue_stream hk .uart (uart_steps (c := c) (V := V) hk.delivers) h hij) _)
    (fun n => ⟨(hread n).1, (hread n).2.1, (hread n).2.2.1⟩)
    (only_count hk .uart (uart_sends_nothing hk) (fun ps hps => parse_all ps hps) (fun _ => rfl) h ho) n,
    told_but_one api_opcode hs n⟩

/-- Reset and its answer, for ever: the responder meets what is asked of it, and so does the host. -/
example (vinto : demoVendor.VStatus → UInt8) (n : Nat) :
    (Act.succeeded (firstActs (scriptedActs ⟨false, false⟩ demoVendor vinto turns) n)).length ≤
      (answersTold ((Act.reads (firstActs (scriptedActs ⟨false, false⟩ demoVendor vinto turns) n)).filterMap
        uartOutcome)).length + 1 :=
  (C101_uart_paired responder_duplex vinto (scripted_dialogue (turns_allowed _)) (turns_waits vinto)
    (scripted_only (turns_allowed _)) n).2

example (vinto : demoVendor.VStatus → UInt8) :
    Act.succeeded (firstActs (scriptedActs ⟨false, false⟩ demoVendor vinto turns) 3) = [.reset, .reset] ∧
    answersTold ((Act.reads (firstActs (scriptedActs ⟨false, false⟩ demoVendor vinto turns) 3)).filterMap uartOutcome) =
      [.commandStatus ⟨.success, 1, ⟨0x0C03⟩⟩] := by
  have h0 := (turns_states vinto 0).2
  have h1 := (turns_states vinto 1).2
  rw [show firstActs (scriptedActs ⟨false, false⟩ demoVendor vinto turns) 3 =
    [scriptedActs ⟨false, false⟩ demoVendor vinto turns (2 * 0), scriptedActs ⟨false, false⟩ demoVendor vinto turns (2 * 0 + 1),
      scriptedActs ⟨false, false⟩ demoVendor vinto turns (2 * 1)] from rfl, h0.1, h0.2, h1.1]
  exact ⟨rfl, rfl⟩

end

section
variable {σ₁ σ₂ E : Type} {c : Cfg} {V : Vendor} {events : Controller σ₁ E} {commands : Controller σ₂ E}
  {stream : σ₁ → List UInt8} {taken : σ₁ → Nat} {sent : σ₂ → List UInt8} {before : Nat → σ₁ × σ₂}

theorem link_carries (ps : List (UInt16 × List UInt8)) (h : ∀ p ∈ ps, p.2.length < 256) :
    LinkCarries (ps.map (cmdBytes .cmdLink)).flatten ps := ⟨h, rfl⟩

/-- The same with a link for the events and one for the commands. -/
theorem C101_two_links_no_overrun (hd : Delivers events stream taken) (hw : WritesAtomically commands sent)
    {acts : Nat → Act V.VStatus E (Res (Nb (EventLinkError E V.VErr)) V.Ev)} (vinto : V.VStatus → UInt8)
    (h : Dialogue (fun s => stream s.1) (fun s => taken s.1) (fun s => sent s.2)
      (EventLink.read c V (twoLinks events commands))
      (·.exec cmdLinkHeader (twoLinks events commands) vinto) (·.Constructible c) before acts)
    (hs : OneAtATime linkOutcome acts) {n : Nat} {new : List UInt8} {received : List (UInt16 × List UInt8)}
    (hn : sent (before n).2 = sent (before 0).2 ++ new) (hc : LinkCarries new received)
    {packets : List (List UInt8)} (hf : ∀ p ∈ packets, Framed p)
    (hp : packets.flatten <+: (stream (before n).1).drop (taken (before 0).1))
    (ht : taken (before n).1 ≤ taken (before 0).1 + packets.flatten.length) :
    received.length ≤ (answersIn packets).length + 1 := by
  have hk := twoLinks_duplex hd hw
  obtain ⟨h1, h2⟩ := session_sent hk .cmdLink (link_sends_nothing hk) (dialogue_session h n)
  obtain rfl := List.append_cancel_left (hn.symm.trans h1)
  obtain rfl := link_packets_inj _ _ h2 hc.1 hc.2
  exact no_overrun hk .cmdLink prefixFree_id (link_steps hk.delivers) h hs hf (by rw [wire_id]; exact hp)
    (by rw [wire_id]; exact ht)

theorem C101_two_links_in_order (hd : Delivers events stream taken) (hw : WritesAtomically commands sent)
    {acts : Nat → Act V.VStatus E (Res (Nb (EventLinkError E V.VErr)) V.Ev)} (vinto : V.VStatus → UInt8)
    (h : Dialogue (fun s => stream s.1) (fun s => taken s.1) (fun s => sent s.2)
      (EventLink.read c V (twoLinks events commands))
      (·.exec cmdLinkHeader (twoLinks events commands) vinto) (·.Constructible c) before acts)
    (hs : OneAtATime linkOutcome acts)
    (ho : AnswersOnly (fun s => stream s.1) (fun s => taken s.1) (fun s => sent s.2) LinkCarries List.flatten before)
    {n : Nat} {new : List UInt8} {received : List (UInt16 × List UInt8)}
    (hn : sent (before n).2 = sent (before 0).2 ++ new) (hc : LinkCarries new received)
    {packets : List (List UInt8)} (hf : ∀ p ∈ packets, Framed p)
    (hp : packets.flatten <+: (stream (before n).1).drop (taken (before 0).1)) :
    answersIn packets <+: received.map Prod.fst := by
  have hk := twoLinks_duplex hd hw
  obtain ⟨h1, h2⟩ := session_sent hk .cmdLink (link_sends_nothing hk) (dialogue_session h n)
  obtain rfl := List.append_cancel_left (hn.symm.trans h1)
  obtain rfl := link_packets_inj _ _ h2 hc.1 hc.2
  obtain ⟨read, hread⟩ := dialogue_read hk .cmdLink (link_steps hk.delivers) h
  rw [accepted_succeeded, List.map_map]
  exact answers_prefix api_opcode hs prefixFree_id
    (arrived := fun n => (stream (before n).1).drop (taken (before 0).1))
    (fun hij => prefix_drop (dialogue_stream hk .cmdLink (link_steps (c := c) (V := V) hk.delivers) h hij) _)
    (fun n => ⟨(hread n).1, (hread n).2.2.1⟩) (told_at_most (c := c) fun n => (hread n).2.1)
    (only_count hk .cmdLink (link_sends_nothing hk) link_carries (fun ps => (wire_id ps).symm) h ho) n packets hf
    (by rw [wire_id]; exact hp)

theorem C101_two_links_paired (hd : Delivers events stream taken) (hw : WritesAtomically commands sent)
    {acts : Nat → Act V.VStatus E (Res (Nb (EventLinkError E V.VErr)) V.Ev)} (vinto : V.VStatus → UInt8)
    (h : Dialogue (fun s => stream s.1) (fun s => taken s.1) (fun s => sent s.2)
      (EventLink.read c V (twoLinks events commands))
      (·.exec cmdLinkHeader (twoLinks events commands) vinto) (·.Constructible c) before acts)
    (hs : OneAtATime linkOutcome acts)
    (ho : AnswersOnly (fun s => stream s.1) (fun s => taken s.1) (fun s => sent s.2) LinkCarries List.flatten before)
    (n : Nat) :
    (∀ (i : Nat) (e : V.Ev), (answersTold ((Act.reads (firstActs acts n)).filterMap linkOutcome))[i]? = some e →
      ∃ cmd, (Act.succeeded (firstActs acts n))[i]? = some cmd ∧ TellsAnswer cmd e) ∧
    (Act.succeeded (firstActs acts n)).length ≤
      (answersTold ((Act.reads (firstActs acts n)).filterMap linkOutcome)).length + 1 := by
  have hk := twoLinks_duplex hd hw
  obtain ⟨read, hread⟩ := dialogue_read hk .cmdLink (link_steps hk.delivers) h
  exact ⟨told_paired hs prefixFree_id (arrived := fun n => (stream (before n).1).drop (taken (before 0).1))
    (fun hij => prefix_drop (dialogue_stream hk .cmdLink (link_steps (c := c) (V := V) hk.delivers) h hij) _)
    (fun n => ⟨(hread n).1, (hread n).2.1, (hread n).2.2.1⟩)
    (only_count hk .cmdLink (link_sends_nothing hk) link_carries (fun ps => (wire_id ps).symm) h ho) n,
    told_but_one api_opcode hs n⟩

/-- The packets of the example, up to the first answer and all of them. -/
theorem reset_framed : (∀ p ∈ [[0x10, 0x01, 0x2A], [0x0E, 4, 1, 0x03, (0x0C : UInt8), 0]], Framed p) ∧
    ∀ p ∈ [[0x10, 0x01, 0x2A], [0x0E, 4, 1, 0x03, (0x0C : UInt8), 0], [0x0F, 4, 0, 1, 0x18, 0x20]], Framed p := by
  have h1 : Framed [0x10, 0x01, 0x2A] := ⟨0x10, [0x2A], by decide, rfl⟩
  have h2 : Framed [0x0E, 4, 1, 0x03, (0x0C : UInt8), 0] := ⟨0x0E, [1, 0x03, 0x0C, 0], by decide, rfl⟩
  have h3 : Framed [0x0F, 4, 0, 1, 0x18, (0x20 : UInt8)] := ⟨0x0F, [0, 1, 0x18, 0x20], by decide, rfl⟩
  constructor <;> intro p hp <;> simp only [List.mem_cons, List.not_mem_nil, or_false] at hp
  · rcases hp with rfl | rfl <;> assumption
  · rcases hp with rfl | rfl | rfl <;> assumption

theorem reset_received (n : Nat) (packets : List (List UInt8)) (hf : ∀ p ∈ packets, Framed p)
    (hp : packets.flatten <+: (resetStates n).1.1) :
    packets <+: (if n = 0 then [] else if n < 4 then [[0x10, 0x01, 0x2A], [0x0E, 4, 1, 0x03, 0x0C, 0]]
      else [[0x10, 0x01, 0x2A], [0x0E, 4, 1, 0x03, 0x0C, 0], [0x0F, 4, 0, 1, 0x18, 0x20]]) := by
  have main : ∀ all : List (List UInt8), (∀ p ∈ all, Framed p) → packets.flatten <+: all.flatten → packets <+: all := by
    intro all ha ⟨t, ht⟩
    exact wire_prefix prefixFree_id packets all t [] hf ha
      (fun p u hp h => by obtain ⟨_, _, _, rfl⟩ := hp; cases h)
      (by rw [wire_id, wire_id, List.append_nil]; exact ht)
  rcases n with _ | _ | _ | _ | _ | n
  · exact main [] (by simp) hp
  iterate 3 exact main _ reset_framed.1 hp
  · exact main _ reset_framed.2 hp
  · rw [if_neg (by omega), if_neg (by omega)]
    exact main _ reset_framed.2 hp

theorem reset_sent (n : Nat) (new : List UInt8) (commands : List (UInt16 × List UInt8))
    (hn : (resetStates n).2.sent = [] ++ new) (hc : LinkCarries new commands) :
    commands = if n = 0 then [] else if n < 4 then [(0x0C03, [])] else [(0x0C03, []), (0x2018, [])] := by
  obtain ⟨hl, hc⟩ := hc
  have main : ∀ cs : List (UInt16 × List UInt8), (∀ p ∈ cs, p.2 = []) →
      new = (cs.map fun p => le16 p.1 ++ UInt8.ofNat p.2.length :: p.2).flatten → commands = cs := by
    intro cs h he
    exact link_packets_inj _ _ hl (fun p hp => by rw [h p hp]; simp) (hc.symm.trans he)
  rcases n with _ | _ | _ | _ | _ | n
  · exact main [] (by simp) hn.symm
  iterate 3 exact main [(0x0C03, [])] (by simp) (hn.symm.trans (by decide))
  · exact main [(0x0C03, []), (0x2018, [])] (by simp) (hn.symm.trans (by decide))
  · rw [if_neg (by omega), if_neg (by omega)]
    exact main [(0x0C03, []), (0x2018, [])] (by simp) (hn.symm.trans (show (resetStates 5).2.sent = _ by decide))

/-- Reset and LE Rand with their answers; then the host goes on reading for ever. -/
theorem reset_session :
    Dialogue (fun s => s.1.1) (fun s => s.1.2) (fun s => s.2.sent)
      (EventLink.read ⟨false, false⟩ demoVendor (twoLinks fifo modem))
      (fun cmd : Command demoVendor.VStatus => cmd.exec cmdLinkHeader (twoLinks fifo modem) id)
      (·.Constructible ⟨false, false⟩) resetStates (resetActs (V := demoVendor)) ∧
    OneAtATime (V := demoVendor) linkOutcome resetActs ∧
    AnswersOnly (fun s => s.1.1) (fun s => s.1.2) (fun s => s.2.sent) LinkCarries List.flatten resetStates := by
  have r1 : EventLink.read ⟨false, false⟩ demoVendor (twoLinks fifo modem) (resetStates 1) =
      (.ok (.hardwareError ⟨0x2A⟩), resetStates 2) := by
    show EventLink.read _ _ _ (([0x10, 0x01, 0x2A, 0x0E, 4, 1, 0x03, 0x0C, 0], 0), (⟨([], 0), [0x03, 0x0C, 0]⟩ : Modem)) =
      (_, (([0x10, 0x01, 0x2A, 0x0E, 4, 1, 0x03, 0x0C, 0], 3), _))
    rw [linkRead_eq]; rfl
  have r2 : EventLink.read ⟨false, false⟩ demoVendor (twoLinks fifo modem) (resetStates 2) =
      (.ok (.commandComplete ⟨1, .reset .success⟩), resetStates 3) := by
    show EventLink.read _ _ _ (([0x10, 0x01, 0x2A, 0x0E, 4, 1, 0x03, 0x0C, 0], 3), (⟨([], 0), [0x03, 0x0C, 0]⟩ : Modem)) =
      (_, (([0x10, 0x01, 0x2A, 0x0E, 4, 1, 0x03, 0x0C, 0], 9), _))
    rw [linkRead_eq]; rfl
  have r4 : EventLink.read ⟨false, false⟩ demoVendor (twoLinks fifo modem) (resetStates 4) =
      (.ok (.commandStatus ⟨.success, 1, ⟨0x2018⟩⟩), resetStates 5) := by
    show EventLink.read _ _ _ (([0x10, 0x01, 0x2A, 0x0E, 4, 1, 0x03, 0x0C, 0, 0x0F, 4, 0, 1, 0x18, 0x20], 9),
        (⟨([], 0), [0x03, 0x0C, 0, 0x18, 0x20, 0]⟩ : Modem)) =
      (_, (([0x10, 0x01, 0x2A, 0x0E, 4, 1, 0x03, 0x0C, 0, 0x0F, 4, 0, 1, 0x18, 0x20], 15), _))
    rw [linkRead_eq]; rfl
  have r5 : EventLink.read ⟨false, false⟩ demoVendor (twoLinks fifo modem) (resetStates 5) =
      (.err .wouldBlock, resetStates 5) := by
    show EventLink.read _ _ _ (([0x10, 0x01, 0x2A, 0x0E, 4, 1, 0x03, 0x0C, 0, 0x0F, 4, 0, 1, 0x18, 0x20], 15),
        (⟨([], 0), [0x03, 0x0C, 0, 0x18, 0x20, 0]⟩ : Modem)) =
      (_, (([0x10, 0x01, 0x2A, 0x0E, 4, 1, 0x03, 0x0C, 0, 0x0F, 4, 0, 1, 0x18, 0x20], 15), _))
    rw [linkRead_eq]; rfl
  refine ⟨?_, ?_, ?_⟩
  · intro i
    rcases i with _ | _ | _ | _ | _ | i
    · exact ⟨_, ⟨trivial, rfl⟩, List.nil_prefix, rfl, rfl⟩
    · exact ⟨_, r1, List.prefix_rfl, rfl, rfl⟩
    · exact ⟨_, r2, List.prefix_rfl, rfl, rfl⟩
    · exact ⟨_, ⟨trivial, rfl⟩, ⟨[0x0F, 4, 0, 1, 0x18, 0x20], rfl⟩, rfl, rfl⟩
    · exact ⟨_, r4, List.prefix_rfl, rfl, rfl⟩
    · exact ⟨_, r5, List.prefix_rfl, rfl, rfl⟩
  · intro n cmd r hn
    rcases n with _ | _ | _ | _ | _ | n
    · intro earlier cmd' later he
      cases earlier <;> cases he
    · cases hn
    · cases hn
    · intro earlier cmd' later he
      rcases earlier with _ | ⟨x, _ | ⟨y, _ | ⟨z, _ | ⟨u, earlier⟩⟩⟩⟩ <;> cases he
      exact ⟨_, _, .tail _ (.head _), rfl, .inl ⟨1, .reset .success, rfl, rfl⟩⟩
    · cases hn
    · cases hn
  · intro n new commands packets hn hc hf hp o
    have hp := reset_received n packets hf hp
    rw [reset_sent n new commands hn hc]
    refine Nat.le_trans ((answersIn_mono hp).sublist.count_le o) ?_
    split
    · exact Nat.le_refl _
    · split <;> exact Nat.le_refl _

example (n : Nat) : (Act.succeeded (firstActs (resetActs (V := demoVendor)) n)).length ≤
    (answersTold (V := demoVendor) ((Act.reads (firstActs resetActs n)).filterMap linkOutcome)).length + 1 :=
  (C101_two_links_paired (c := ⟨false, false⟩) (V := demoVendor) (before := resetStates) (acts := resetActs) fifo_delivers
    modem_duplex.writes id reset_session.1 reset_session.2.1 reset_session.2.2 n).2

example : answersTold (V := demoVendor) ((Act.reads (firstActs resetActs 6)).filterMap linkOutcome) =
    [.commandComplete ⟨1, .reset .success⟩, .commandStatus ⟨.success, 1, ⟨0x2018⟩⟩] := rfl

end

end Bt
