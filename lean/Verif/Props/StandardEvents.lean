import Verif.Lemmas.StandardEvents
import Verif.Props.EventLink
import Verif.Props.Streams

/-! # C82, C83: the events of a conforming controller -/

namespace Bt

open Spec

variable {c : Cfg} {V : Vendor}

/-! ## One event -/

/-- **C82.** An event of a conforming controller is accepted exactly when its fields are in range, which they are
unless it reports a failure, and it is not one of the events of `StdEvent.Rejected`. What is accepted has the
fields of the packet, with the crate's numbers of the PHYs. -/
theorem C82_accepted (x : StdEvent) (hx : x.Conforms c) :
    ((∃ e, Event.new c V x.packet = .ok e) ↔ x.InRange c ∧ ¬ x.Rejected c) ∧
    ∀ e, Event.new c V x.packet = .ok e → Says c V x.code x.params e := by
  refine ⟨⟨?_, fun h => ?_⟩, fun e h => ?_⟩
  · rintro ⟨e, h⟩
    rcases fate_event c V x hx with ⟨h', -⟩ | ⟨-, e', h'⟩
    · exact h'
    · rw [h'] at h; cases h
  · rcases fate_event c V x hx with ⟨-, e, h'⟩ | ⟨h', -⟩
    · exact ⟨e, h'⟩
    · exact absurd h h'
  · obtain ⟨code, ps, hf, -, hsays⟩ := (C09_sound_and_complete c V _ _).mp h
    obtain ⟨rfl, rfl⟩ := frame_inj hf
    exact hsays

/-- The 1M and 2M PHYs are accepted. -/
example : (StdEvent.lePhyUpdate 0 64 1 2).InRange ⟨false, true⟩ ∧
    ¬ (StdEvent.lePhyUpdate 0 64 1 2).Rejected ⟨false, true⟩ :=
  ⟨⟨by decide, by decide⟩, by intro h; cases h⟩

/-- **C82 (partial).** The claim is that every event of a conforming controller is understood. It is, as what
it says by the standard, exactly when its fields are in range, which they are unless it reports a failure, and
it is neither one of the events of `StdEvent.Rejected` nor one of `StdEvent.Misread`. Missing: these events,
and failures with other fields out of range (`C82_fails`). -/
theorem C82_understood_partial (x : StdEvent) (hx : x.Conforms c) :
    (∃ e, Event.new c V x.packet = .ok e ∧ x.Means c V e) ↔
      x.InRange c ∧ ¬ x.Rejected c ∧ ¬ x.Misread := by
  obtain ⟨hiff, hsays⟩ := C82_accepted (V := V) x hx
  constructor
  · rintro ⟨e, h, hm⟩
    obtain ⟨hr, hn⟩ := hiff.mp ⟨e, h⟩
    refine ⟨hr, hn, ?_⟩
    rintro ⟨⟩
    exact phys_misread c V (hsays e h) (hm.phys _ _ _ _ rfl)
  · rintro ⟨hr, hn, hm⟩
    obtain ⟨e, h⟩ := hiff.mpr ⟨hr, hn⟩
    exact ⟨e, h, hsays e h, fun st h tx rx hx => absurd (hx ▸ .phys) hm⟩

/-- Conforming events: a connection with 7.5 ms and a timeout of 200 ms, and the 1M and 2M PHYs. The first is
understood. -/
example : (StdEvent.leConnection 0 64 1 1 ⟨[1, 2, 3, 4, 5, 6], rfl⟩ 6 0 20 3).Conforms ⟨true, false⟩ ∧
    (StdEvent.lePhyUpdate 0 64 1 2).Conforms ⟨false, true⟩ := by
  refine ⟨⟨?_, .inr ⟨by decide, by decide, ⟨by decide, by decide, by decide, by decide⟩, by decide⟩, ?_, by decide⟩,
    ⟨?_, .inr ⟨by decide, by decide⟩, ?_, by decide⟩⟩
  · intro b hb
    rw [List.mem_singleton.mp hb]
    decide
  · intro n o st h; cases h
  · intro b hb
    rw [List.mem_singleton.mp hb]
    decide
  · intro n o st h; cases h

/-- **C82.** An event that does not report a failure is understood unless it is one of `Rejected` and
`Misread`. -/
theorem C82_success (x : StdEvent) (hx : x.Conforms c) (hf : ¬ x.Failed) :
    (∃ e, Event.new c V x.packet = .ok e ∧ x.Means c V e) ↔ ¬ x.Rejected c ∧ ¬ x.Misread := by
  have hr : x.InRange c := hx.inRange.resolve_left hf
  rw [C82_understood_partial x hx]
  exact ⟨fun h => h.2, fun h => ⟨hr, h⟩⟩

example : ¬ (StdEvent.lePhyUpdate 0 64 1 2).Failed ∧ (StdEvent.disconnection 2 64 0x13).Failed :=
  ⟨by rintro ⟨st, rest, h, h'⟩; cases h; exact h' rfl, ⟨2, [0x13], rfl, by decide⟩⟩

/-- **C83.** Whatever the vendor's functions do, no event of a conforming controller makes decoding panic. -/
theorem C83_no_panic (x : StdEvent) (hx : x.Conforms c) : Event.new c V x.packet ≠ .panic := by
  intro h
  rcases fate_event c V x hx with ⟨-, e, h'⟩ | ⟨-, e, h'⟩ <;> (rw [h'] at h; cases h)

example : (StdEvent.leReports demoRaws).Conforms ⟨false, true⟩ := by
  refine ⟨?_, .inr ?_, ?_, by decide⟩
  · intro b hb; cases hb
  · intro r hr
    simp only [demoRaws, List.mem_cons, List.not_mem_nil, or_false] at hr
    rcases hr with rfl | rfl
    · exact ⟨by decide, .inl (by decide), by decide, .inl (by decide)⟩
    · exact ⟨by decide, .inr ⟨.inr rfl, by decide⟩, by decide, .inr rfl⟩
  · intro n o st h; cases h

/-- **C82** as stated is false in every configuration and for every vendor: a peer with a feature of a later
version, a supervision timeout of 100 ms, the Coded PHY and a failed connection are conforming and are
rejected. (Identity addresses: `C81_fails`.) -/
theorem C82_fails :
    ∀ x ∈ [StdEvent.leRemoteFeatures 0 64 0x20000, .leConnectionUpdate 0 64 6 0 10, .lePhyUpdate 0 64 3 3,
        .leConnection 0x3E 0 0 0 ⟨[0, 0, 0, 0, 0, 0], rfl⟩ 0 0 0 0],
      x.Conforms c ∧ ∀ e, Event.new c V x.packet ≠ .ok e := by
  have key : ∀ x : StdEvent, x.Conforms c → ¬ (x.InRange c ∧ ¬ x.Rejected c) →
      x.Conforms c ∧ ∀ e, Event.new c V x.packet ≠ .ok e := by
    intro x hx hn
    refine ⟨hx, fun e h => ?_⟩
    rcases fate_event c V x hx with ⟨h', -⟩ | ⟨-, e', h'⟩
    · exact hn h'
    · rw [h'] at h; cases h
  have code : ∀ b : UInt8, b.toNat < 0x41 → b.toNat < statusCount c := by
    intro b hb
    unfold statusCount
    split <;> omega
  have one : ∀ {st : UInt8}, st.toNat < 0x41 → ∀ b ∈ [st], b.toNat < statusCount c := by
    intro st hst b hb
    rw [List.mem_singleton.mp hb]
    exact code _ hst
  intro x hx
  simp only [List.mem_cons, List.not_mem_nil, or_false] at hx
  rcases hx with rfl | rfl | rfl | rfl
  · refine key _ ⟨one (by decide), .inr trivial, (by intro n o st h; cases h), by decide⟩ fun h => h.2 ?_
    refine .feature (j := 17) (by decide) ?_
    unfold LeFeatureBit
    omega
  · exact key _ ⟨one (by decide), .inr ⟨by decide, by decide, by decide, by decide⟩, (by intro n o st h; cases h),
      by decide⟩ fun h => h.2 .updateTimeout
  · exact key _ ⟨one (by decide), .inr ⟨by decide, by decide⟩, (by intro n o st h; cases h),
      by decide⟩ fun h => h.2 .codedTx
  · refine key _ ⟨one (by decide), .inl ⟨0x3E, [], rfl, by decide⟩, (by intro n o st h; cases h),
      by decide⟩ fun h => ?_
    have := h.1.2.2.1.interval.1
    revert this
    decide

example : Event.new ⟨true, false⟩ demoVendor (StdEvent.lePhyUpdate 0 64 3 3).packet = .err (.badPhy 3) := rfl

/-- **C82**, the events that are accepted and misread: no success with the 1M PHY is understood. -/
theorem C82_misread (h : UInt16) : (StdEvent.lePhyUpdate 0 h 1 1).Conforms c ∧
    (∃ e, Event.new c V (StdEvent.lePhyUpdate 0 h 1 1).packet = .ok e) ∧
    ∀ e, Event.new c V (StdEvent.lePhyUpdate 0 h 1 1).packet = .ok e →
      ¬ (StdEvent.lePhyUpdate 0 h 1 1).Means c V e := by
  have hx : (StdEvent.lePhyUpdate 0 h 1 1).Conforms c := by
    refine ⟨?_, .inr ⟨by decide, by decide⟩, (by intro n o st h; cases h), by simp [StdEvent.params]⟩
    intro b hb
    rw [List.mem_singleton.mp hb]
    unfold statusCount
    split <;> decide
  refine ⟨hx, (C82_accepted _ hx).1.mpr ⟨⟨by decide, by decide⟩, by intro h; cases h⟩, fun e he hm => ?_⟩
  exact ((C82_understood_partial _ hx).mp ⟨e, he, hm⟩).2.2 .phys

example : Event.new ⟨false, true⟩ demoVendor (StdEvent.lePhyUpdate 0 64 1 1).packet =
    .ok (.lePhyUpdateComplete ⟨⟨64⟩, .success, .le2M, .le2M⟩) := rfl

/-! ## A conversation -/

variable {σ E : Type} {k : Controller σ E} {stream : σ → List UInt8} {taken : σ → Nat}

/-- **C83** (`uart`). A history with a conforming controller: what has been received is the beginning of the
packets of the events `xs`. Then what `read` has reported are the outcomes for the first of these events, in
order, each one once, and `read` has neither panicked nor complained about a packet indicator. -/
theorem C83_uart (hd : Delivers k stream taken) {s s' : σ}
    {rs : List (Res (Nb (UartError E V.VErr)) (UartPacket V))}
    (h : History stream taken (Uart.read c V k) s rs s') (xs : List StdEvent) (hx : ∀ x ∈ xs, x.Conforms c)
    (later : List UInt8) (hb : (stream s').drop (taken s) ++ later = uartBytes (xs.map StdEvent.packet)) :
    (∃ seen rest, xs = seen ++ rest ∧
      rs.filterMap uartOutcome = seen.map (fun x => Event.new c V x.packet) ∧
      taken s' = taken s + (uartBytes (seen.map StdEvent.packet)).length) ∧
    ∀ r ∈ rs, r ≠ .panic ∧ ∀ b, r ≠ .err (.other (.badPacketType b)) := by
  obtain ⟨⟨packets, hf, h1, h2, h3⟩, h4⟩ := C03_history hd h
  rw [h3, List.append_assoc] at hb
  have hp : packets <+: xs.map StdEvent.packet := by
    refine wire_prefix prefixFree_uart packets _ (pending stream taken s' ++ later) [] hf (std_framed hx) ?_ ?_
    · intro p u _ h; cases h
    · rw [List.append_nil]; exact hb
  obtain ⟨seen, rest, rfl, rfl⟩ := map_prefix_split hp
  rw [List.map_map] at h1
  refine ⟨⟨seen, rest, rfl, h1, h2⟩, fun r hr => ⟨?_, ?_⟩⟩
  · rintro rfl
    have : (.panic : Res V.EvErr V.Ev) ∈ rs.filterMap uartOutcome := List.mem_filterMap.mpr ⟨_, hr, rfl⟩
    rw [h1] at this
    obtain ⟨x, hm, he⟩ := List.mem_map.mp this
    exact C83_no_panic x (hx x (by simp [hm])) he
  · rintro b rfl
    obtain ⟨hb4, hbp⟩ := h4 b hr
    have e : uartBytes ((seen ++ rest).map StdEvent.packet) =
        uartBytes (seen.map StdEvent.packet) ++ uartBytes (rest.map StdEvent.packet) := by
      simp [uartBytes]
    rw [e] at hb
    have hb := List.append_cancel_left hb
    cases hq : pending stream taken s' with
    | nil => rw [hq] at hbp; cases hbp
    | cons y ys =>
      rw [hq] at hb hbp
      cases hbp
      cases rest with
      | nil => cases hb
      | cons x rest => exact hb4 (List.cons.inj hb).1

/-- Two events of a conforming controller, of which the second is not understood, read from a queue. -/
example : (callTimes (Uart.read ⟨true, false⟩ demoVendor fifo) 2
    (uartBytes ([StdEvent.hardwareError 3, .lePhyUpdate 0 64 3 3].map StdEvent.packet), 0)).1 =
      [.ok (.event (.hardwareError ⟨3⟩)), .err (.other (.ble (.badPhy 3)))] := by
  simp only [callTimes, uartRead_eq]
  rfl

/-- **C83** (`event_link`). The same without packet indicators. -/
theorem C83_event_link (hd : Delivers k stream taken) {s s' : σ}
    {rs : List (Res (Nb (EventLinkError E V.VErr)) V.Ev)}
    (h : History stream taken (EventLink.read c V k) s rs s') (xs : List StdEvent)
    (hx : ∀ x ∈ xs, x.Conforms c) (later : List UInt8)
    (hb : (stream s').drop (taken s) ++ later = (xs.map StdEvent.packet).flatten) :
    (∃ seen rest, xs = seen ++ rest ∧
      rs.filterMap linkOutcome = seen.map (fun x => Event.new c V x.packet) ∧
      taken s' = taken s + ((seen.map StdEvent.packet).flatten).length) ∧
    ∀ r ∈ rs, r ≠ .panic := by
  obtain ⟨packets, hf, h1, h2, h3⟩ := C08_history hd h
  rw [h3, List.append_assoc] at hb
  have hp : packets <+: xs.map StdEvent.packet := by
    refine wire_prefix prefixFree_id packets _ (pending stream taken s' ++ later) [] hf (std_framed hx) ?_ ?_
    · rintro p u ⟨code, ps, -, rfl⟩ h; cases h
    · rw [List.append_nil]
      simpa [wire] using hb
  obtain ⟨seen, rest, rfl, rfl⟩ := map_prefix_split hp
  rw [List.map_map] at h1
  refine ⟨⟨seen, rest, rfl, h1, h2⟩, fun r hr => ?_⟩
  rintro rfl
  have : (.panic : Res V.EvErr V.Ev) ∈ rs.filterMap linkOutcome := List.mem_filterMap.mpr ⟨_, hr, rfl⟩
  rw [h1] at this
  obtain ⟨x, hm, he⟩ := List.mem_map.mp this
  exact C83_no_panic x (hx x (by simp [hm])) he

example : (callTimes (EventLink.read ⟨true, false⟩ demoVendor fifo) 2
    (([StdEvent.hardwareError 3, .lePhyUpdate 0 64 3 3].map StdEvent.packet).flatten, 0)).1 =
      [.ok (.hardwareError ⟨3⟩), .err (.other (.ble (.badPhy 3)))] := by
  simp only [callTimes, linkRead_eq]
  rfl

end Bt
