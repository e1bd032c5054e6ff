import Verif.Spec.Lost
import Verif.Props.Mixed

/-! # C107: finding the way back after bytes have been lost -/

namespace Bt

open Spec

variable {σ E : Type} {c : Cfg} {V : Vendor} {k : Controller σ E} {stream : σ → List UInt8} {taken : σ → Nat}

theorem stray_first {q : List UInt8} (h : Stray q) : ∃ b : UInt8, b ≠ 0x04 ∧ q[0]? = some b := by
  obtain ⟨b, hb, rfl⟩ := h
  exact ⟨b, hb, rfl⟩

theorem skip_takes (hd : Delivers k stream taken) : TakesOther stream taken (skipByte k) Stray := by
  intro b s r s' hb hg h
  change Ctl.bind (k.readInto 1) (fun got => pure got.val) s = (r, s') at h
  rcases h3 : k.readInto 1 s with ⟨r₃, s₃⟩
  obtain ⟨n3, p3, t3, -⟩ := hd.readInto _ _ _ _ h3
  cases r₃ with
  | panic => exact absurd rfl n3
  | err e =>
    rw [Ctl.bind_err h3] at h
    cases h
    exact ⟨p3, .inl ⟨t3 _ rfl, _, rfl⟩⟩
  | ok got =>
    rw [Ctl.bind_ok h3] at h
    cases h
    obtain ⟨q1, q2, q3⟩ := taken_bytes hd h3
    refine ⟨p3, .inr ⟨_, rfl, ?_, q2, q3⟩⟩
    obtain ⟨x, hx⟩ := List.length_eq_one_iff.1 got.len
    rw [hx] at q3 ⊢
    obtain ⟨t, ht⟩ := p3
    have hx : x = b := by
      have h1 : (stream s)[taken s]? = some b := by
        unfold pending at hg
        rwa [List.getElem?_drop] at hg
      have h2 : (stream s')[taken s]? = some b := prefix_get ⟨t, ht⟩ h1
      have h4 : ((stream s').drop (taken s))[0]? = some x := by rw [q3]; rfl
      rw [List.getElem?_drop, Nat.add_zero, h2] at h4
      cases h4
      rfl
    exact ⟨x, hx ▸ hb, rfl⟩

theorem skip_promptly (hd : Delivers k stream taken) (hp : Prompt k stream taken) :
    TakesPromptly stream taken (skipByte k) Stray := by
  rintro b s q tail ⟨x, hx, rfl⟩ hb hs
  obtain ⟨got, s', h1, h2, h3, h4⟩ := readInto_prompt hd hp (s := s) (n := 1) (by rw [hs]; simp)
  refine ⟨s', ?_, h2, h3⟩
  change Ctl.bind (k.readInto 1) (fun got => pure got.val) s = _
  rw [Ctl.bind_ok h1, h4, hs]
  rfl

theorem stray_prefix {p q : Mixed} {r t : List UInt8} (hp : p.Good Stray) (hq : q.Good Stray)
    (h : p.bytes ++ r = q.bytes ++ t) : p = q ∧ r = t := by
  cases p with
  | event p =>
    cases q with
    | event q =>
      obtain ⟨rfl, rfl⟩ := framed_prefix hp hq (List.cons.inj h).2
      exact ⟨rfl, rfl⟩
    | other q =>
      obtain ⟨b, hb, rfl⟩ := hq
      exact absurd (List.cons.inj h).1.symm hb
  | other p =>
    obtain ⟨a, ha, rfl⟩ := hp
    cases q with
    | event q => exact absurd (List.cons.inj h).1 ha
    | other q =>
      obtain ⟨b, hb, rfl⟩ := hq
      obtain ⟨rfl, rfl⟩ := List.cons.inj h
      exact ⟨rfl, rfl⟩

theorem mixed_bytes_ne (p : Mixed) (h : p.Good Stray) : p.bytes ≠ [] := by
  cases p with
  | event p => simp [Mixed.bytes]
  | other q =>
    obtain ⟨b, -, rfl⟩ := h
    simp [Mixed.bytes]

theorem stray_prefixes : ∀ (ps qs : List Mixed) (r : List UInt8), (∀ p ∈ ps, p.Good Stray) →
    (∀ q ∈ qs, q.Good Stray) → mixedBytes ps ++ r = mixedBytes qs → ∃ rest, qs = ps ++ rest ∧ r = mixedBytes rest
  | [], qs, r, _, _, h => ⟨qs, rfl, h⟩
  | p :: ps, [], r, hp, _, h => by
    rw [mixedBytes_cons] at h
    rw [List.append_assoc] at h
    exact absurd (List.append_eq_nil_iff.mp h).1 (mixed_bytes_ne p (hp p (.head _)))
  | p :: ps, q :: qs, r, hp, hq, h => by
    rw [mixedBytes_cons, mixedBytes_cons, List.append_assoc] at h
    obtain ⟨rfl, h'⟩ := stray_prefix (hp p (.head _)) (hq q (.head _)) h
    obtain ⟨rest, rfl, h2⟩ := stray_prefixes ps qs r (fun p h => hp p (.tail _ h)) (fun q h => hq q (.tail _ h)) h'
    exact ⟨rest, rfl, h2⟩

theorem mixedBytes_append (xs ys : List Mixed) : mixedBytes (xs ++ ys) = mixedBytes xs ++ mixedBytes ys := by
  simp [mixedBytes]

theorem mixedBytes_events (ps : List (List UInt8)) : mixedBytes (ps.map .event) = uartBytes ps := by
  simp [mixedBytes, uartBytes, Function.comp_def, Mixed.bytes]

theorem uartBytes_cons (p : List UInt8) (ps : List (List UInt8)) : uartBytes (p :: ps) = 0x04 :: (p ++ uartBytes ps) := by
  simp [uartBytes]

/-- Bytes without an event indicator. -/
theorem strays (g : List UInt8) (h : 0x04 ∉ g) :
    (∀ x ∈ g.map (fun b => Mixed.other [b]), x.Good Stray) ∧ mixedBytes (g.map fun b => Mixed.other [b]) = g := by
  constructor
  · intro x hx
    obtain ⟨b, hb, rfl⟩ := List.mem_map.mp hx
    exact ⟨b, fun e => h (e ▸ hb), rfl⟩
  · induction g with
    | nil => rfl
    | cons b g ih =>
      rw [List.map_cons, mixedBytes_cons, ih fun hm => h (.tail _ hm)]
      rfl

/-- Where the packets are cut, the rest of the packet that is cut is skipped. -/
theorem cut : ∀ (ps : List (List UInt8)) (u v : List UInt8), (∀ p ∈ ps, 0x04 ∉ p) → uartBytes ps = u ++ v →
    ∃ lost found tl, ps = lost ++ found ∧ uartBytes lost = u ++ tl ∧ v = tl ++ uartBytes found ∧ 0x04 ∉ tl ∧
      (uartBytes lost.dropLast).length ≤ u.length
  | ps, [], v, _, h => ⟨[], ps, [], rfl, rfl, h.symm, by simp, by simp [uartBytes]⟩
  | [], x :: u, v, _, h => by simp [uartBytes] at h
  | p :: ps, x :: u, v, hp, h => by
    rw [uartBytes_cons] at h
    obtain ⟨rfl, h'⟩ : 0x04 = x ∧ p ++ uartBytes ps = u ++ v := List.cons.inj h
    rcases List.append_eq_append_iff.mp h' with ⟨w, hw, hv⟩ | ⟨w, hw, hv⟩
    · obtain ⟨lost, found, tl, rfl, h1, h2, h3, h4⟩ := cut ps w v (fun q hq => hp q (.tail _ hq)) hv
      refine ⟨p :: lost, found, tl, rfl, ?_, h2, h3, ?_⟩
      · rw [uartBytes_cons, h1, hw]
        simp
      · cases lost with
        | nil => simp [uartBytes]
        | cons q lost =>
          rw [List.dropLast_cons_cons, uartBytes_cons, hw]
          simp only [List.length_cons, List.length_append]
          omega
    · refine ⟨[p], ps, w, rfl, ?_, hv, ?_, by simp [uartBytes]⟩
      · rw [uartBytes_cons, hw]
        simp [uartBytes]
      · intro hm
        exact hp p (.head _) (by rw [hw]; simp [hm])

/-- **C107**, the case in which the way back is found: if no packet contains the byte 0x04, all packets are found that
begin 258 bytes or more after the remains, whatever these are. -/
theorem C107_way_back_partial (g : List UInt8) (ps : List (List UInt8)) (hp : ∀ p ∈ ps, 0x04 ∉ p)
    (hl : 258 ≤ (uartBytes ps).length) :
    ∃ xs lost found, Recovers g ps xs lost found ∧ (uartBytes lost.dropLast).length < 258 := by
  induction hn : g.length using Nat.strongRecOn generalizing g with
  | ind n ih =>
  subst hn
  cases g with
  | nil => exact ⟨[], [], ps, ⟨by simp, rfl, rfl⟩, by simp [uartBytes]⟩
  | cons b g =>
    by_cases hb : b = 0x04
    · subst hb
      -- what is taken for an event
      obtain ⟨code, m, rest, hw⟩ : ∃ code m rest, g ++ uartBytes ps = code :: m :: rest := by
        rcases hgp : g ++ uartBytes ps with _ | ⟨code, _ | ⟨m, rest⟩⟩
        · have := congrArg List.length hgp; simp only [List.length_append, List.length_cons, List.length_nil] at this; omega
        · have := congrArg List.length hgp; simp only [List.length_append, List.length_cons, List.length_nil] at this; omega
        · exact ⟨_, _, _, rfl⟩
      have hlen : m.toNat ≤ rest.length := by
        have := congrArg List.length hw
        have hm := m.toNat_lt
        simp only [List.length_append, List.length_cons] at this
        omega
      have hf : Framed (code :: m :: rest.take m.toNat) := by
        have hm := m.toNat_lt
        refine ⟨code, rest.take m.toNat, by rw [List.length_take]; omega, ?_⟩
        simp only [frame, List.length_take, Nat.min_eq_left hlen]
        rw [UInt8.ofNat_toNat]
      have hw' : g ++ uartBytes ps = (code :: m :: rest.take m.toNat) ++ rest.drop m.toNat := by
        rw [hw]; simp
      generalize hp' : code :: m :: rest.take m.toNat = p at hf hw'
      have hpl : p.length ≤ 257 := by
        have hm := m.toNat_lt
        rw [← hp']
        simp only [List.length_cons, List.length_take]
        omega
      rcases List.append_eq_append_iff.mp hw' with ⟨u, hu, hv⟩ | ⟨u, hu, hv⟩
      · obtain ⟨lost, found, tl, rfl, h1, h2, h3, h4⟩ := cut ps u _ hp hv
        obtain ⟨s1, s2⟩ := strays tl h3
        refine ⟨.event p :: tl.map (fun b => .other [b]), lost, found, ⟨?_, rfl, ?_⟩, ?_⟩
        · intro x hx
          rcases List.mem_cons.mp hx with rfl | hx
          · exact hf
          · exact s1 x hx
        · rw [mixedBytes_cons, s2, h1, hu]
          simp [Mixed.bytes]
        · have := congrArg List.length hu
          simp only [List.length_append] at this
          omega
      · obtain ⟨xs, lost, found, ⟨r1, r2, r3⟩, r4⟩ := ih u.length (by
          have := congrArg List.length hu
          simp only [List.length_append] at this
          simp only [List.length_cons]
          omega) u rfl
        refine ⟨.event p :: xs, lost, found, ⟨?_, r2, ?_⟩, r4⟩
        · intro x hx
          rcases List.mem_cons.mp hx with rfl | hx
          · exact hf
          · exact r1 x hx
        · rw [mixedBytes_cons, r3, hu]
          simp [Mixed.bytes]
    · obtain ⟨xs, lost, found, ⟨r1, r2, r3⟩, r4⟩ := ih g.length (by simp) g rfl
      refine ⟨.other [b] :: xs, lost, found, ⟨?_, r2, ?_⟩, r4⟩
      · intro x hx
        rcases List.mem_cons.mp hx with rfl | hx
        · exact ⟨b, hb, rfl⟩
        · exact r1 x hx
      · rw [mixedBytes_cons, r3]
        rfl

example : (∀ p ∈ List.replicate 70 ([0x10, 0x01, 0x2A] : List UInt8), 0x04 ∉ p) ∧
    258 ≤ (uartBytes (List.replicate 70 [0x10, 0x01, 0x2A])).length := by
  refine ⟨fun p hp => ?_, ?_⟩
  · rw [List.eq_of_mem_replicate hp]; decide
  · decide +kernel

/-- Without the byte 0x04 in the remains nothing is lost. -/
theorem C107_clean_partial (g : List UInt8) (hg : 0x04 ∉ g) (ps : List (List UInt8)) :
    Recovers g ps (g.map fun b => .other [b]) [] ps :=
  ⟨(strays g hg).1, rfl, by rw [(strays g hg).2]; simp [uartBytes]⟩

example : (0x04 : UInt8) ∉ [0x01, 0x40, 0x00, 0x05, 0x00] := by decide

/-- The beginning of a Command Complete, whose end was lost, and three events. The first of them is lost too. -/
def lostDemo : List (List UInt8) := [[0x10, 0x01, 0x2A], [0x10, 0x01, 0x2B], [0x1A, 0x01, 0x01]]

theorem lostDemo_recovers : Recovers [0x04, 0x0E, 0x05, 0xAA] lostDemo [.event [0x0E, 0x05, 0xAA, 0x04, 0x10, 0x01, 0x2A]]
    [[0x10, 0x01, 0x2A]] [[0x10, 0x01, 0x2B], [0x1A, 0x01, 0x01]] :=
  ⟨by
    intro x hx
    cases List.mem_singleton.mp hx
    exact ⟨0x0E, [0xAA, 0x04, 0x10, 0x01, 0x2A], by decide, rfl⟩, rfl, rfl⟩

theorem lostDemo_framed : ∀ p ∈ lostDemo, Framed p := by
  intro p hp
  simp only [lostDemo, List.mem_cons, List.not_mem_nil, or_false] at hp
  rcases hp with rfl | rfl | rfl
  · exact ⟨0x10, [0x2A], by decide, rfl⟩
  · exact ⟨0x10, [0x2B], by decide, rfl⟩
  · exact ⟨0x1A, [0x01], by decide, rfl⟩

/-- **C107**: in every history, what the application is told is what the remains and the lost packets are taken for,
and then the packets found, one by one. -/
theorem C107_history_partial (hd : Delivers k stream taken) {s s' : σ}
    {rs : List (Res (Nb (UartError E V.VErr)) (UartPacket V ⊕ List UInt8))}
    (h : History stream taken (readAny (Uart.read c V k) (skipByte k)) s rs s') (g later : List UInt8)
    (ps lost found : List (List UInt8)) (xs : List Mixed) (hf : ∀ p ∈ ps, Framed p)
    (hr : Recovers g ps xs lost found)
    (hb : (stream s').drop (taken s) ++ later = g ++ uartBytes ps) :
    rs.filterMap news <+: xs.map (Mixed.news c V) ++ found.map (fun p => .event (Event.new c V p)) ∧
      ∀ b, .err (.other (.badPacketType b)) ∉ rs := by
  obtain ⟨⟨packets, h1, h2, -, h3⟩, h4⟩ := C100_history hd (skip_takes hd) h
  refine ⟨?_, h4⟩
  have hg : ∀ x ∈ xs ++ found.map Mixed.event, x.Good Stray := by
    intro x hx
    rcases List.mem_append.mp hx with hx | hx
    · exact hr.good x hx
    · obtain ⟨p, hp, rfl⟩ := List.mem_map.mp hx
      exact hf p (by rw [hr.split]; simp [hp])
  have he : mixedBytes packets ++ (pending stream taken s' ++ later) = mixedBytes (xs ++ found.map Mixed.event) := by
    rw [mixedBytes_append, mixedBytes_events, hr.taken, ← List.append_assoc, ← h3, hb, hr.split]
    simp [uartBytes]
  obtain ⟨rest, h5, -⟩ := stray_prefixes packets _ _ h1 hg he
  rw [h2]
  have := congrArg (List.map (Mixed.news c V)) h5
  rw [List.map_append, List.map_append, List.map_map] at this
  exact ⟨_, this.symm⟩

/-- **C107**: … and it is told all of it if the controller serves the calls. -/
theorem C107_all_partial (hd : Delivers k stream taken) (hp : Prompt k stream taken) (s : σ) (g tail : List UInt8)
    (ps lost found : List (List UInt8)) (xs : List Mixed) (hf : ∀ p ∈ ps, Framed p)
    (hr : Recovers g ps xs lost found) (hs : pending stream taken s = g ++ uartBytes ps ++ tail) :
    (callTimes (readAny (Uart.read c V k) (skipByte k)) (xs.length + found.length) s).1.map news =
      xs.map (fun x => some (x.news c V)) ++ found.map (fun p => some (.event (Event.new c V p))) := by
  have hg : ∀ x ∈ xs ++ found.map Mixed.event, x.Good Stray := by
    intro x hx
    rcases List.mem_append.mp hx with hx | hx
    · exact hr.good x hx
    · obtain ⟨p, hp, rfl⟩ := List.mem_map.mp hx
      exact hf p (by rw [hr.split]; simp [hp])
  have := (C100_one_by_one (c := c) (V := V) hd hp (skip_promptly hd hp) (fun _ => stray_first)
    (xs ++ found.map Mixed.event) s tail hg (by
      rw [mixedBytes_append, mixedBytes_events, hr.taken, hs, hr.split]
      simp [uartBytes])).1
  rw [List.length_append, List.length_map, List.map_append, List.map_map] at this
  exact this

example : (callTimes (readAny (Uart.read c demoVendor fifo) (skipByte fifo)) 3
      ([0x04, 0x0E, 0x05, 0xAA] ++ uartBytes lostDemo, 0)).1.map news =
    [some (.event (Event.new c demoVendor [0x0E, 0x05, 0xAA, 0x04, 0x10, 0x01, 0x2A])),
      some (.event (.ok (.hardwareError ⟨0x2B⟩))), some (.event (.ok (.dataBufferOverflow ⟨.acl⟩)))] :=
  C107_all_partial (c := c) (V := demoVendor) fifo_delivers fifo_prompt _ _ [] _ _ _ _ lostDemo_framed lostDemo_recovers
    (List.append_nil _).symm

/-- The bytes of this example, in a history. -/
example : ∃ rs s', History (·.1) (·.2) (readAny (Uart.read c demoVendor fifo) (skipByte fifo))
      ([0x04, 0x0E, 0x05, 0xAA] ++ uartBytes lostDemo, 0) rs s' ∧ rs.length = 3 :=
  ⟨_, _, callTimes_history _ 3 _, rfl⟩

/-- **C107**, exactly when nothing is lost: if in some history the application gets to the beginning of the packets,
the remains are a sequence of stray bytes and whole events, and if they are, nothing is lost. -/
theorem C107_exact_partial (hd : Delivers k stream taken) {s s' : σ}
    {rs : List (Res (Nb (UartError E V.VErr)) (UartPacket V ⊕ List UInt8))}
    (h : History stream taken (readAny (Uart.read c V k) (skipByte k)) s rs s') (g : List UInt8)
    (hg : g <+: (stream s').drop (taken s)) :
    (taken s' = taken s + g.length → Parses g) ∧
      (Parses g → ∀ ps, ∃ xs, Recovers g ps xs [] ps) := by
  refine ⟨fun ht => ?_, ?_⟩
  · obtain ⟨⟨packets, h1, -, h2, h3⟩, -⟩ := C100_history hd (skip_takes hd) h
    refine ⟨packets, h1, ?_⟩
    obtain ⟨t, ht'⟩ := hg
    rw [h3] at ht'
    exact (List.append_inj ht' (by omega)).1.symm
  · rintro ⟨xs, h1, h2⟩ ps
    exact ⟨xs, h1, rfl, by rw [h2]; simp [uartBytes]⟩

/-! ## The way back is not always found -/

/-- Number Of Completed Packets: five of connection 4. -/
def fiveOfFour : List UInt8 := [0x13, 0x05, 0x01, 0x04, 0x00, 0x05, 0x00]

/-- What is taken for an event instead. -/
def shifted : List UInt8 := [0x00, 0x05, 0x00, 0x04, 0x13, 0x05, 0x01]

theorem shift_one (n : Nat) : [0x04, 0x00, 0x05, 0x00] ++ uartBytes (List.replicate n fiveOfFour) =
    uartBytes (List.replicate n shifted) ++ [0x04, 0x00, 0x05, 0x00] := by
  induction n with
  | zero => rfl
  | succ n ih =>
    rw [List.replicate_succ, List.replicate_succ, uartBytes_cons, uartBytes_cons]
    have : ([0x04, 0x00, 0x05, 0x00] : List UInt8) ++ 0x04 :: (fiveOfFour ++ uartBytes (List.replicate n fiveOfFour)) =
        0x04 :: shifted ++ ([0x04, 0x00, 0x05, 0x00] ++ uartBytes (List.replicate n fiveOfFour)) := rfl
    rw [this, ih]
    simp

theorem shifted_only : ∀ (n : Nat) (packets : List (List UInt8)) (r : List UInt8), (∀ p ∈ packets, Framed p) →
    uartBytes packets ++ r = uartBytes (List.replicate n shifted) ++ [0x04, 0x00, 0x05, 0x00] →
    (∀ p ∈ packets, p = shifted) ∧ r[0]? = some 0x04
  | 0, [], r, _, h => by
    have h : r = [0x04, 0x00, 0x05, 0x00] := h
    simp [h]
  | n + 1, [], r, _, h => by
    have h : r = uartBytes (List.replicate (n + 1) shifted) ++ [0x04, 0x00, 0x05, 0x00] := h
    simp [h, List.replicate_succ, uartBytes_cons]
  | 0, p :: ps, r, hp, h => by
    obtain ⟨code, qs, hl, rfl⟩ := hp p (.head _)
    have h : 0x04 :: code :: UInt8.ofNat qs.length :: (qs ++ uartBytes ps ++ r) = [0x04, 0x00, 0x05, 0x00] := by
      simpa [uartBytes, frame] using h
    simp only [List.cons.injEq, true_and] at h
    obtain ⟨-, h1, h2⟩ := h
    have h3 := congrArg List.length h2
    have h4 := congrArg UInt8.toNat h1
    rw [UInt8.toNat_ofNat_of_lt' (by simp [UInt8.size]; omega)] at h4
    have h5 : (5 : UInt8).toNat = 5 := rfl
    rw [h5] at h4
    simp only [List.length_append, List.length_cons, List.length_nil] at h3
    omega
  | n + 1, p :: ps, r, hp, h => by
    rw [List.replicate_succ, uartBytes_cons, uartBytes_cons] at h
    have h : p ++ (uartBytes ps ++ r) =
        shifted ++ (uartBytes (List.replicate n shifted) ++ [0x04, 0x00, 0x05, 0x00]) := by
      simpa using h
    obtain ⟨rfl, h'⟩ := framed_prefix (hp p (.head _)) ⟨0x00, [0x00, 0x04, 0x13, 0x05, 0x01], by decide, rfl⟩ h
    obtain ⟨h1, h2⟩ := shifted_only n ps r (fun p h => hp p (.tail _ h)) h'
    exact ⟨fun q hq => (List.mem_cons.mp hq).elim id (h1 q), h2⟩

set_option maxRecDepth 4000 in
/-- **C107** as stated is false: a controller sends the same valid event again and again. A host that has lost four
bytes of it reports an unknown event each time, and never the event; there is no byte that it could skip. -/
theorem C107_fails (hd : Delivers k stream taken) {s s' : σ}
    {rs : List (Res (Nb (UartError E V.VErr)) (UartPacket V))}
    (h : History stream taken (Uart.read c V k) s rs s') (n : Nat) (later : List UInt8)
    (hb : (stream s').drop (taken s) ++ later = [0x04, 0x00, 0x05, 0x00] ++ uartBytes (List.replicate n fiveOfFour)) :
    (∃ e, Event.new c V fiveOfFour = .ok (.numberOfCompletedPackets e)) ∧
    (∀ r ∈ rs.filterMap uartOutcome, r = .err (.unknownEvent 0x00)) ∧
      ∀ b, .err (.other (.badPacketType b)) ∉ rs := by
  obtain ⟨⟨packets, h1, h2, -, h3⟩, h4⟩ := C03_history hd h
  rw [shift_one, h3, List.append_assoc] at hb
  obtain ⟨h5, h6⟩ := shifted_only n packets _ h1 hb
  refine ⟨⟨_, rfl⟩, ?_, ?_⟩
  · intro r hr
    rw [h2] at hr
    obtain ⟨p, hp, rfl⟩ := List.mem_map.mp hr
    rw [h5 p hp]
    rfl
  · intro b hm
    obtain ⟨h7, h8⟩ := h4 b hm
    have : (pending stream taken s' ++ later)[0]? = some b := prefix_get ⟨later, rfl⟩ h8
    rw [h6] at this
    cases this
    exact h7 rfl

example : ∃ rs s', History (·.1) (·.2) (Uart.read c demoVendor fifo)
      ([0x04, 0x00, 0x05, 0x00] ++ uartBytes (List.replicate 9 fiveOfFour), 0) rs s' ∧ rs.length = 9 :=
  ⟨_, _, callTimes_history _ 9 _, rfl⟩

end Bt
