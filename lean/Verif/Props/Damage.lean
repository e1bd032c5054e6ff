import Verif.Spec.Damage
import Verif.Props.EventLink
import Verif.Props.Lost

/-! # C110: what a damaged byte can do -/

namespace Bt

open Spec

section
variable {σ ε α δ : Type} {stream : σ → List UInt8} {taken : σ → Nat} {m : Ctl σ ε α}
  {lead : List UInt8} {outcome : Res ε α → Option δ} {decode : List UInt8 → δ}

theorem transmitted_cons (lead p : List UInt8) (ps : List (List UInt8)) :
    transmitted lead (p :: ps) = lead ++ p ++ transmitted lead ps := rfl

theorem changed_eq (lead : List UInt8) {packets : List (List UInt8)} {n j : Nat} {p : List UInt8} (b : UInt8)
    (hp : packets[n]? = some p) (hj : j < p.length) :
    changed lead packets n j b = transmitted lead (packets.set n (p.set j b)) := by
  induction packets generalizing n with
  | nil => cases hp
  | cons q qs ih =>
    cases n with
    | zero =>
      cases hp
      simp only [changed, startOf, List.take_zero, List.set_cons_zero, transmitted_cons]
      rw [List.append_assoc, List.append_assoc, List.set_append_right _ _ (by simp [transmitted])]
      rw [List.set_append_left _ _ (by simp [transmitted]; omega)]
      simp [transmitted]
    | succ n =>
      have := ih (n := n) hp
      unfold changed startOf at this ⊢
      rw [List.take_succ_cons, transmitted_cons, transmitted_cons, List.set_cons_succ, transmitted_cons, ← this,
        List.set_append_right _ _ (by simp; omega)]
      congr 2
      simp
      omega

theorem framed_set {p : List UInt8} (hp : Framed p) {j : Nat} (hj : j ≠ 1) (b : UInt8) : Framed (p.set j b) := by
  obtain ⟨code, ps, hl, rfl⟩ := hp
  match j, hj with
  | 0, _ => exact ⟨b, ps, hl, rfl⟩
  | j + 2, _ => exact ⟨code, ps.set j b, by simpa using hl, by simp [frame]⟩

theorem framed_all {packets : List (List UInt8)} (hf : ∀ p ∈ packets, Framed p) {n : Nat} {p : List UInt8}
    (hp : Framed p) : ∀ q ∈ packets.set n p, Framed q := by
  intro q hq
  rcases List.mem_or_eq_of_mem_set hq with h | rfl
  · exact hf q h
  · exact hp

theorem no_packet {lead p u : List UInt8} (hp : Framed p) : ([] : List UInt8) ≠ lead ++ p ++ u := by
  obtain ⟨code, ps, hl, rfl⟩ := hp
  simp [frame]

/-- What a history reports of bytes that begin with packets, up to any of them. -/
theorem reported_up_to (hm : Steps stream taken m (lead ++ ·) outcome decode) (hw : PrefixFree (lead ++ ·)) {s s' : σ}
    {rs : List (Res ε α)} (h : History stream taken m s rs s') (packets : List (List UInt8))
    (hf : ∀ p ∈ packets, Framed p) (later rest : List UInt8)
    (hb : (stream s').drop (taken s) ++ later = transmitted lead packets ++ rest) (i : Nat) (x : δ)
    (hx : (rs.filterMap outcome)[i]? = some x) (hi : i < packets.length) : packets[i]?.map decode = some x := by
  obtain ⟨-, qs, f, o, -, b⟩ := history hm h
  rw [o, List.getElem?_map] at hx
  obtain ⟨q, hq, rfl⟩ := Option.map_eq_some_iff.mp hx
  rw [b, List.append_assoc] at hb
  have : packets[i]? = some q := by
    rcases wire_comparable hw qs packets _ _ f hf hb with h | h
    · obtain ⟨t, rfl⟩ := h
      rw [List.getElem?_append_left (List.getElem?_eq_some_iff.mp hq).1, hq]
    · obtain ⟨t, rfl⟩ := h
      rwa [List.getElem?_append_left hi] at hq
  rw [this]
  rfl

/-- What a history reports of packets, with nothing after them. -/
theorem reported_of (hm : Steps stream taken m (lead ++ ·) outcome decode) (hw : PrefixFree (lead ++ ·)) {s s' : σ}
    {rs : List (Res ε α)} (h : History stream taken m s rs s') (packets : List (List UInt8))
    (hf : ∀ p ∈ packets, Framed p) (later : List UInt8)
    (hb : (stream s').drop (taken s) ++ later = transmitted lead packets) :
    rs.filterMap outcome <+: packets.map decode := by
  obtain ⟨-, qs, f, o, -, b⟩ := history hm h
  rw [o]
  rw [b, List.append_assoc] at hb
  exact (wire_prefix hw qs packets _ [] f hf (fun p u hp => no_packet hp) (hb.trans (List.append_nil _).symm)).map _

theorem take_transmitted (lead : List UInt8) (packets : List (List UInt8)) (n i : Nat)
    (hi : startOf lead packets n ≤ i) (other : List UInt8) :
    ∃ rest, (transmitted lead packets).take i ++ other = transmitted lead (packets.take n) ++ rest := by
  have h : transmitted lead packets = transmitted lead (packets.take n) ++ transmitted lead (packets.drop n) := by
    simp only [transmitted]
    rw [← List.flatten_append, ← List.map_append, List.take_append_drop]
  rw [h, List.take_append, List.take_of_length_le hi, List.append_assoc]
  exact ⟨_, rfl⟩

end

variable {σ E : Type} {c : Cfg} {V : Vendor} {k : Controller σ E} {stream : σ → List UInt8} {taken : σ → Nat}

/-- **C110.** On a UART, a byte that is neither a packet indicator nor a length arrives changed. In any history, every
other packet is reported as it would have been, in its place, and for this one the decoding of the changed packet; and
`read` never complains about an indicator. -/
theorem C110_uart (hd : Delivers k stream taken) {s s' : σ} {rs : List (Res (Nb (UartError E V.VErr)) (UartPacket V))}
    (h : History stream taken (Uart.read c V k) s rs s') (packets : List (List UInt8)) (hf : ∀ p ∈ packets, Framed p)
    (n j : Nat) (b : UInt8) (p : List UInt8) (hp : packets[n]? = some p) (hj : j < p.length) (hj1 : j ≠ 1)
    (later : List UInt8) (hb : (stream s').drop (taken s) ++ later = changed [0x04] packets n j b) :
    (rs.filterMap uartOutcome <+: (packets.map (Event.new c V)).set n (Event.new c V (p.set j b))) ∧
      ∀ x, .err (.other (.badPacketType x)) ∉ rs := by
  rw [changed_eq _ b hp hj] at hb
  have hf' := framed_all hf (n := n) (framed_set (hf p (List.mem_of_getElem? hp)) hj1 b)
  constructor
  · have := reported_of (lead := [0x04]) (uart_steps (c := c) (V := V) hd) prefixFree_uart h _ hf' later hb
    rwa [List.map_set] at this
  · intro x hx
    obtain ⟨⟨qs, f, -, -, b1⟩, h2⟩ := C03_history hd h
    obtain ⟨h3, h4⟩ := h2 x hx
    rw [b1, List.append_assoc] at hb
    obtain ⟨t, ht⟩ := wire_prefix prefixFree_uart qs _ _ [] f hf' (fun p u hp => no_packet (lead := [0x04]) hp)
      (hb.trans (List.append_nil _).symm)
    rw [← ht] at hb
    have hb : pending stream taken s' ++ later = transmitted [0x04] t := by
      simp only [transmitted, uartBytes, List.map_append, List.flatten_append] at hb ⊢
      exact List.append_cancel_left hb
    cases t with
    | nil =>
      have := (List.append_eq_nil_iff.mp hb).1
      rw [this] at h4
      cases h4
    | cons q t =>
      have h5 : (pending stream taken s' ++ later)[0]? = some 0x04 := by rw [hb]; rfl
      rw [List.getElem?_append_left (by
        rcases Nat.eq_zero_or_pos (pending stream taken s').length with h | h
        · rw [List.length_eq_zero_iff.mp h] at h4
          cases h4
        · exact h), h4] at h5
      cases h5
      exact h3 rfl

/-- **C110** on an event link. -/
theorem C110_link (hd : Delivers k stream taken) {s s' : σ} {rs : List (Res (Nb (EventLinkError E V.VErr)) V.Ev)}
    (h : History stream taken (EventLink.read c V k) s rs s') (packets : List (List UInt8))
    (hf : ∀ p ∈ packets, Framed p) (n j : Nat) (b : UInt8) (p : List UInt8) (hp : packets[n]? = some p)
    (hj : j < p.length) (hj1 : j ≠ 1) (later : List UInt8)
    (hb : (stream s').drop (taken s) ++ later = changed [] packets n j b) :
    rs.filterMap linkOutcome <+: (packets.map (Event.new c V)).set n (Event.new c V (p.set j b)) := by
  rw [changed_eq _ b hp hj] at hb
  have := reported_of (lead := []) (link_steps (c := c) (V := V) hd) prefixFree_id h _
    (framed_all hf (n := n) (framed_set (hf p (List.mem_of_getElem? hp)) hj1 b)) later hb
  rwa [List.map_set] at this

/-- **C110.** And with a controller that answers when it can, on a UART, all of them are reported. -/
theorem C110_uart_all (hd : Delivers k stream taken) (hpr : Prompt k stream taken) (s : σ)
    (packets : List (List UInt8)) (hf : ∀ p ∈ packets, Framed p) (n j : Nat) (b : UInt8) (p : List UInt8)
    (hp : packets[n]? = some p) (hj : j < p.length) (hj1 : j ≠ 1) (tail : List UInt8)
    (hs : pending stream taken s = changed [0x04] packets n j b ++ tail) :
    (callTimes (Uart.read c V k) packets.length s).1 =
      (packets.map (fun p => uartResult (Event.new c V p))).set n (uartResult (Event.new c V (p.set j b))) := by
  rw [changed_eq _ b hp hj] at hs
  have := (C04_one_by_one (c := c) (V := V) hd hpr s _ tail
    (framed_all hf (n := n) (framed_set (hf p (List.mem_of_getElem? hp)) hj1 b)) hs).1
  rwa [List.map_set, List.length_set] at this

/-- **C110.** The same on an event link. -/
theorem C110_link_all (hd : Delivers k stream taken) (hpr : Prompt k stream taken) (s : σ)
    (packets : List (List UInt8)) (hf : ∀ p ∈ packets, Framed p) (n j : Nat) (b : UInt8) (p : List UInt8)
    (hp : packets[n]? = some p) (hj : j < p.length) (hj1 : j ≠ 1) (tail : List UInt8)
    (hs : pending stream taken s = changed [] packets n j b ++ tail) :
    (callTimes (EventLink.read c V k) packets.length s).1 =
      (packets.map (fun p => linkResult (Event.new c V p))).set n (linkResult (Event.new c V (p.set j b))) := by
  rw [changed_eq _ b hp hj] at hs
  have := (C08_one_by_one (c := c) (V := V) hd hpr s _ tail
    (framed_all hf (n := n) (framed_set (hf p (List.mem_of_getElem? hp)) hj1 b)) (by simpa [transmitted] using hs)).1
  rwa [List.map_set, List.length_set] at this

/-- **C110.** Whatever happens to the bytes from some place on, also to indicators and lengths: the packets that end
before it are reported as they were sent. On a UART. -/
theorem C110_uart_before (hd : Delivers k stream taken) {s s' : σ}
    {rs : List (Res (Nb (UartError E V.VErr)) (UartPacket V))}
    (h : History stream taken (Uart.read c V k) s rs s') (packets : List (List UInt8)) (hf : ∀ p ∈ packets, Framed p)
    (n : Nat) (hn : n < packets.length) (i : Nat) (hi : startOf [0x04] packets (n + 1) ≤ i) (later other : List UInt8)
    (hb : (stream s').drop (taken s) ++ later = (transmitted [0x04] packets).take i ++ other)
    (x : Res V.EvErr V.Ev) (hx : (rs.filterMap uartOutcome)[n]? = some x) :
    packets[n]?.map (Event.new c V) = some x := by
  obtain ⟨rest, hr⟩ := take_transmitted [0x04] packets (n + 1) i hi other
  have := reported_up_to (lead := [0x04]) (uart_steps (c := c) (V := V) hd) prefixFree_uart h (packets.take (n + 1))
    (fun p hp => hf p (List.mem_of_mem_take hp)) later rest (hb.trans hr) n x hx (by rw [List.length_take]; omega)
  rwa [List.getElem?_take_of_lt (Nat.lt_succ_self n)] at this

/-- **C110.** The same on an event link. -/
theorem C110_link_before (hd : Delivers k stream taken) {s s' : σ}
    {rs : List (Res (Nb (EventLinkError E V.VErr)) V.Ev)}
    (h : History stream taken (EventLink.read c V k) s rs s') (packets : List (List UInt8))
    (hf : ∀ p ∈ packets, Framed p)
    (n : Nat) (hn : n < packets.length) (i : Nat) (hi : startOf [] packets (n + 1) ≤ i) (later other : List UInt8)
    (hb : (stream s').drop (taken s) ++ later = (transmitted [] packets).take i ++ other)
    (x : Res V.EvErr V.Ev) (hx : (rs.filterMap linkOutcome)[n]? = some x) :
    packets[n]?.map (Event.new c V) = some x := by
  obtain ⟨rest, hr⟩ := take_transmitted [] packets (n + 1) i hi other
  have := reported_up_to (lead := []) (link_steps (c := c) (V := V) hd) prefixFree_id h (packets.take (n + 1))
    (fun p hp => hf p (List.mem_of_mem_take hp)) later rest (hb.trans hr) n x hx (by rw [List.length_take]; omega)
  rwa [List.getElem?_take_of_lt (Nat.lt_succ_self n)] at this

/-- **C110.** Why indicators are excepted: if an indicator arrives changed, `read` never reports this packet or a later
one. -/
theorem C110_indicator (hd : Delivers k stream taken) {s s' : σ}
    {rs : List (Res (Nb (UartError E V.VErr)) (UartPacket V))}
    (h : History stream taken (Uart.read c V k) s rs s') (packets : List (List UInt8)) (hf : ∀ p ∈ packets, Framed p)
    (n : Nat) (hn : n < packets.length) (b : UInt8) (hb4 : b ≠ 0x04) (later : List UInt8)
    (hb : (stream s').drop (taken s) ++ later = changedLead [0x04] packets n b) :
    rs.filterMap uartOutcome <+: (packets.take n).map (Event.new c V) := by
  obtain ⟨-, qs, f, o, -, b1⟩ := history (uart_steps (c := c) (V := V) hd) h
  rw [o]
  rw [b1, List.append_assoc] at hb
  have h1 : changedLead [0x04] packets n b =
      transmitted [0x04] (packets.take n) ++ (b :: (packets[n] ++ transmitted [0x04] (packets.drop (n + 1)))) := by
    have h2 : transmitted [0x04] packets = transmitted [0x04] (packets.take n) ++
        (0x04 :: (packets[n] ++ transmitted [0x04] (packets.drop (n + 1)))) := by
      have h3 : packets = packets.take n ++ packets[n] :: packets.drop (n + 1) := by
        rw [← List.drop_eq_getElem_cons hn, List.take_append_drop]
      have h4 : ∀ A p B, transmitted [0x04] (A ++ p :: B) =
          transmitted [0x04] A ++ (0x04 :: (p ++ transmitted [0x04] B)) := by
        intro A p B
        simp [transmitted]
      exact (congrArg (transmitted [0x04]) h3).trans (h4 _ _ _)
    unfold changedLead startOf
    rw [h2, List.set_append_right _ _ (Nat.le_refl _), Nat.sub_self]
    rfl
  rw [h1] at hb
  refine (wire_prefix prefixFree_uart qs _ _ _ f (fun p hp => hf p (List.mem_of_mem_take hp)) ?_ hb).map _
  intro p u _ h
  exact hb4 (List.cons.inj h).1

/-- **C110.** Why lengths are excepted: two packets, the length of the first arrives changed, and the second is never
reported, whatever is called, though all its bytes arrive unchanged. -/
theorem C110_length : ∃ (packets : List (List UInt8)) (b : UInt8), packets = [[0x10, 1, 0x2A], [0x10, 1, 0x2B]] ∧
    ∀ (c : Cfg) (V : Vendor) {σ E : Type} {k : Controller σ E} {stream : σ → List UInt8} {taken : σ → Nat},
      Delivers k stream taken → ∀ {s s' : σ} {rs : List (Res (Nb (UartError E V.VErr)) (UartPacket V))},
      History stream taken (Uart.read c V k) s rs s' →
      (stream s').drop (taken s) = changed [0x04] packets 0 1 b →
      rs.filterMap uartOutcome <+: [Event.new c V [0x10, 5, 0x2A, 0x04, 0x10, 1, 0x2B]] ∧
        Event.new c V [0x10, 5, 0x2A, 0x04, 0x10, 1, 0x2B] = .err (.badLength 5 1) := by
  refine ⟨_, 5, rfl, fun c V σ E k stream taken hd s s' rs h hb => ⟨?_, rfl⟩⟩
  exact reported_of (lead := [0x04]) (uart_steps (c := c) (V := V) hd) prefixFree_uart h
    [[0x10, 5, 0x2A, 0x04, 0x10, 1, 0x2B]] (by
      intro p hp
      rw [List.mem_singleton] at hp
      subst hp
      exact ⟨0x10, [0x2A, 0x04, 0x10, 1, 0x2B], by simp, rfl⟩) [] (by rw [List.append_nil, hb]; rfl)

/-- The second of three packets arrives with another connection handle; the others are not affected. -/
example : changed [0x04] [[0x10, 1, 0x2A], [0x05, 4, 0, 0x40, 0, 0x13], [0x10, 1, 0x2B]] 1 3 0x41 =
      [0x04, 0x10, 1, 0x2A, 0x04, 0x05, 4, 0, 0x41, 0, 0x13, 0x04, 0x10, 1, 0x2B] ∧
    (callTimes (Uart.read c demoVendor fifo) 3
      ([0x04, 0x10, 1, 0x2A, 0x04, 0x05, 4, 0, 0x41, 0, 0x13, 0x04, 0x10, 1, 0x2B], 0)).1 =
    [.ok (.event (.hardwareError ⟨0x2A⟩)),
     .ok (.event (.disconnectionComplete ⟨.success, ⟨0x41⟩, .remoteTerminationByUser⟩)),
     .ok (.event (.hardwareError ⟨0x2B⟩))] := by
  refine ⟨rfl, ?_⟩
  refine (C110_uart_all (c := c) (V := demoVendor) fifo_delivers fifo_prompt
    (([0x04, 0x10, 1, 0x2A, 0x04, 0x05, 4, 0, 0x41, 0, 0x13, 0x04, 0x10, 1, 0x2B], 0) : Fifo)
    [[0x10, 1, 0x2A], [0x05, 4, 0, 0x40, 0, 0x13], [0x10, 1, 0x2B]] ?_ 1 3 0x41 [0x05, 4, 0, 0x40, 0, 0x13] rfl
    (by decide) (by decide) [] rfl).trans ?_
  · intro p hp
    simp only [List.mem_cons, List.not_mem_nil, or_false] at hp
    rcases hp with rfl | rfl | rfl
    · exact ⟨0x10, [0x2A], by simp, rfl⟩
    · exact ⟨0x05, [0, 0x40, 0, 0x13], by simp, rfl⟩
    · exact ⟨0x10, [0x2B], by simp, rfl⟩
  · cases c with
    | mk v42 v50 => cases v42 <;> cases v50 <;> rfl

end Bt
