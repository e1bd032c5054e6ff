import Verif.Lemmas.Histories
import Verif.Spec.Controllers
import Verif.Spec.Demo

/-! # C08: reading events from an event link -/

namespace Bt

open Spec

variable {σ E : Type} {c : Cfg} {V : Vendor} {k : Controller σ E}
  {stream : σ → List UInt8} {taken : σ → Nat}

theorem link_steps (hd : Delivers k stream taken) :
    Steps stream taken (EventLink.read c V k) id linkOutcome (Event.new c V) := by
  intro s r s' h
  obtain ⟨hs, h⟩ := link_step hd h
  refine ⟨hs, ?_⟩
  rcases h with ⟨ht, rfl | ⟨e, rfl⟩⟩ | ⟨code, ps, hl, ht, hb, rfl⟩
  · exact .inl ⟨ht, rfl⟩
  · exact .inl ⟨ht, rfl⟩
  · refine .inr ⟨frame code ps, ⟨code, ps, hl, rfl⟩, ?_, hb, ?_⟩
    · rw [ht]; simp [frame]; omega
    · cases Event.new c V (frame code ps) <;> rfl

theorem wire_id (ps : List (List UInt8)) : wire id ps = ps.flatten := by
  rw [wire, List.map_id]

/-- **C08.** When a complete event packet is pending, `read` takes exactly its `2 + n` bytes, whatever
follows them, and returns the outcome of decoding exactly this packet. -/
theorem C08_one_packet (hd : Delivers k stream taken) (hp : Prompt k stream taken) (s : σ) (code : UInt8)
    (ps tail : List UInt8) (hl : ps.length ≤ 255)
    (hs : pending stream taken s = code :: UInt8.ofNat ps.length :: ps ++ tail) :
    ∃ s' arrived, EventLink.read c V k s =
        (linkResult (Event.new c V (code :: UInt8.ofNat ps.length :: ps)), s') ∧
      taken s' = taken s + 2 + ps.length ∧ pending stream taken s' = tail ++ arrived := by
  obtain ⟨s', h, hst, ht⟩ := link_progress (c := c) (V := V) hd hp hl hs
  obtain ⟨t, ht'⟩ := prefix_drop hst (taken s)
  refine ⟨s', t, h, by omega, ?_⟩
  unfold pending
  rw [ht, ← List.drop_drop, ← ht']
  have : (stream s).drop (taken s) = code :: UInt8.ofNat ps.length :: ps ++ tail := hs
  rw [this, List.append_assoc, List.drop_append_of_le_length (by simp; omega),
    List.drop_of_length_le (by simp; omega), List.nil_append]

example : pending (σ := Fifo) Prod.fst Prod.snd ([9, 0x10, 0x01, 0x2A, 0x3E], 1) =
    0x10 :: UInt8.ofNat [(0x2A : UInt8)].length :: [0x2A] ++ [0x3E] := rfl

/-- **C08.** When the pending bytes are a proper prefix of a packet, `read` would block and takes nothing. -/
theorem C08_incomplete (hd : Delivers k stream taken) (hp : Prompt k stream taken)
    (hq : Quiet k stream taken) (s : σ) (code : UInt8) (ps missing : List UInt8) (hl : ps.length ≤ 255)
    (hm : missing ≠ [])
    (hs : pending stream taken s ++ missing = code :: UInt8.ofNat ps.length :: ps) :
    ∃ s', EventLink.read c V k s = (.err .wouldBlock, s') ∧ stream s' = stream s ∧ taken s' = taken s := by
  have hlen : (pending stream taken s).length + missing.length = 2 + ps.length := by
    have := congrArg List.length hs
    simp only [List.length_append, List.length_cons] at this
    omega
  have hm0 : 0 < missing.length := List.length_pos_iff.mpr hm
  have hget (i : Nat) (hi : i < (pending stream taken s).length) (b : UInt8)
      (hb : (code :: UInt8.ofNat ps.length :: ps)[i]? = some b) :
      (pending stream taken s)[i]? = some b := by
    rw [← hs, List.getElem?_append_left hi] at hb
    exact hb
  rw [linkRead_eq]
  by_cases h2 : (pending stream taken s).length ≤ 1
  · obtain ⟨q3, q4⟩ := hq.peek 1 s
    rcases he : k.peek 1 s with ⟨r, s₂⟩
    rw [he] at q3 q4
    obtain ⟨-, -, t2, -⟩ := hd.peek _ _ _ _ he
    simp only at q3 q4
    rw [q4 h2]
    exact ⟨s₂, rfl, q3, t2⟩
  · obtain ⟨s₂, e2, p2, t2⟩ := peek_prompt hd hp (hget 1 (by omega) _ rfl)
    have q2 : stream s₂ = stream s := by have := (hq.peek 1 s).1; rwa [e2] at this
    have hpend2 : pending stream taken s₂ = pending stream taken s := by
      unfold pending; rw [q2, t2]
    rw [e2]
    simp only
    have hn : (UInt8.ofNat ps.length).toNat = ps.length := by
      rw [UInt8.toNat_ofNat']; omega
    obtain ⟨q3, q4⟩ := hq.readInto (2 + (UInt8.ofNat ps.length).toNat) s₂
    rcases he : k.readInto (2 + (UInt8.ofNat ps.length).toNat) s₂ with ⟨r, s₃⟩
    rw [he] at q3 q4
    obtain ⟨-, -, t3, -⟩ := hd.readInto _ _ _ _ he
    simp only at q3 q4
    have hr := q4 (by rw [hpend2, hn]; omega)
    subst hr
    exact ⟨s₃, rfl, q3.trans q2, (t3 _ rfl).trans t2⟩

/-- The queue holds two of the three bytes of a packet. -/
example : ∃ s', EventLink.read ⟨false, false⟩ demoVendor fifo ([0x10, 0x01], 0) = (.err .wouldBlock, s') :=
  (C08_incomplete fifo_delivers fifo_prompt fifo_quiet ([0x10, 0x01], 0) 0x10 [0x2A] [0x2A] (by decide)
    (by decide) rfl).imp fun _ h => h.1

/-- **C08** for controllers that may fail spuriously and receive bytes at any time: as long as what has
arrived is a proper prefix of a packet, `read` takes nothing and reports `WouldBlock` or the controller's
error. -/
theorem C08_nothing_taken (hd : Delivers k stream taken) (s s' : σ)
    (r : Res (Nb (EventLinkError E V.VErr)) V.Ev) (h : EventLink.read c V k s = (r, s')) (code : UInt8)
    (ps missing : List UInt8) (hl : ps.length ≤ 255) (hm : missing ≠ [])
    (hs : (stream s').drop (taken s) ++ missing = code :: UInt8.ofNat ps.length :: ps) :
    taken s' = taken s ∧ (r = .err .wouldBlock ∨ ∃ e, r = .err (.other (.comm e))) := by
  obtain ⟨-, h⟩ := link_step hd h
  rcases h with h | ⟨code', ps', hl', -, hb, -⟩
  · exact h
  · exfalso
    rw [hb, List.append_assoc] at hs
    have hs' : frame code' ps' ++ ((stream s').drop (taken s') ++ missing) = frame code ps ++ [] := by
      rw [hs]; simp [frame]
    obtain ⟨-, h2⟩ := framed_prefix ⟨code', ps', hl', rfl⟩ ⟨code, ps, hl, rfl⟩ hs'
    exact hm (List.append_eq_nil_iff.mp h2).2

/-- The second byte arrives during the call, the third one is missing. -/
example : ∃ s', EventLink.read ⟨false, false⟩ demoVendor slow ⟨([], 0), [0x10, 0x01], 0⟩ =
      (.err .wouldBlock, s') ∧
    (s'.queue.1).drop 0 ++ [0x01, 0x2A] = 0x10 :: UInt8.ofNat [(0x2A : UInt8)].length :: [0x2A] :=
  ⟨_, by rw [linkRead_eq]; rfl, rfl⟩

/-- **C08.** After any history, the bytes taken are exactly a sequence of packets, and the results other
than `WouldBlock` and communication errors are exactly their decodings, in order, each one once. -/
theorem C08_history (hd : Delivers k stream taken) {s s' : σ}
    {rs : List (Res (Nb (EventLinkError E V.VErr)) V.Ev)}
    (h : History stream taken (EventLink.read c V k) s rs s') :
    ∃ packets : List (List UInt8), (∀ p ∈ packets, Framed p) ∧
      rs.filterMap linkOutcome = packets.map (Event.new c V) ∧
      taken s' = taken s + packets.flatten.length ∧
      (stream s').drop (taken s) = packets.flatten ++ pending stream taken s' := by
  obtain ⟨-, ps, h1, h2, h3, h4⟩ := history (link_steps hd) h
  rw [wire_id] at h3 h4
  exact ⟨ps, h1, h2, h3, h4⟩

/-- Two packets, one of them rejected, with bytes arriving between the calls. -/
example : ∃ s', History (σ := Fifo) Prod.fst Prod.snd (EventLink.read ⟨false, false⟩ demoVendor fifo) ([0x60], 0)
    [.err .wouldBlock, .err (.other (.ble (.unknownEvent 0x60))), .ok (.hardwareError ⟨0x2A⟩)] s' :=
  ⟨_, .call (s₁ := ([0x60], 0)) (by rw [linkRead_eq]; rfl) (.wait (s₁ := ([0x60, 0x00, 0x10, 0x01, 0x2A], 0)) ⟨[0x00, 0x10, 0x01, 0x2A], rfl⟩ rfl
    (.call (by rw [linkRead_eq]; rfl) (.call (by rw [linkRead_eq]; rfl) (.nil _))))⟩

/-- **C08**, for two controllers and two histories in which the same bytes arrive: what the one reports is
the beginning of what the other reports. -/
theorem C08_schedule_independent {σ₁ σ₂ E₁ E₂ : Type} {k₁ : Controller σ₁ E₁} {k₂ : Controller σ₂ E₂}
    {stream₁ : σ₁ → List UInt8} {stream₂ : σ₂ → List UInt8} {taken₁ : σ₁ → Nat} {taken₂ : σ₂ → Nat}
    (hd₁ : Delivers k₁ stream₁ taken₁) (hd₂ : Delivers k₂ stream₂ taken₂) {s₁ s₁' : σ₁} {s₂ s₂' : σ₂}
    {rs₁ : List (Res (Nb (EventLinkError E₁ V.VErr)) V.Ev)}
    {rs₂ : List (Res (Nb (EventLinkError E₂ V.VErr)) V.Ev)}
    (h₁ : History stream₁ taken₁ (EventLink.read c V k₁) s₁ rs₁ s₁')
    (h₂ : History stream₂ taken₂ (EventLink.read c V k₂) s₂ rs₂ s₂')
    (later : List UInt8)
    (hb : (stream₁ s₁').drop (taken₁ s₁) ++ later = (stream₂ s₂').drop (taken₂ s₂)) :
    rs₁.filterMap linkOutcome <+: rs₂.filterMap linkOutcome ∨
      rs₂.filterMap linkOutcome <+: rs₁.filterMap linkOutcome := by
  obtain ⟨-, ps, f1, o1, -, b1⟩ := history (link_steps hd₁) h₁
  obtain ⟨-, qs, f2, o2, -, b2⟩ := history (link_steps hd₂) h₂
  rw [o1, o2]
  rw [b1, b2, List.append_assoc] at hb
  rcases wire_comparable prefixFree_id ps qs _ _ f1 f2 hb with h | h
  · exact .inl (h.map _)
  · exact .inr (h.map _)

/-- The same packet, for one controller in the queue, for the other byte by byte. -/
example : (∃ s', History (σ := Fifo) Prod.fst Prod.snd (EventLink.read ⟨false, false⟩ demoVendor fifo)
      ([0x10, 0x01, 0x2A], 0) [.ok (.hardwareError ⟨0x2A⟩)] s' ∧ s'.1.drop 0 = [0x10, 0x01, 0x2A]) ∧
    ∃ s', History (·.queue.1) (·.queue.2) (EventLink.read ⟨false, false⟩ demoVendor slow)
      ⟨([], 0), [0x10, 0x01, 0x2A], 0⟩ [.err .wouldBlock, .ok (.hardwareError ⟨0x2A⟩)] s' ∧
      s'.queue.1.drop 0 = [0x10, 0x01, 0x2A] :=
  ⟨⟨_, .call (by rw [linkRead_eq]; rfl) (.nil _), rfl⟩,
   ⟨_, .call (by rw [linkRead_eq]; rfl) (.call (by rw [linkRead_eq]; rfl) (.nil _)), rfl⟩⟩

/-- **C08.** If moreover all packets that arrived have been read, both report the same. -/
theorem C08_same_results {σ₁ σ₂ E₁ E₂ : Type} {k₁ : Controller σ₁ E₁} {k₂ : Controller σ₂ E₂}
    {stream₁ : σ₁ → List UInt8} {stream₂ : σ₂ → List UInt8} {taken₁ : σ₁ → Nat} {taken₂ : σ₂ → Nat}
    (hd₁ : Delivers k₁ stream₁ taken₁) (hd₂ : Delivers k₂ stream₂ taken₂) {s₁ s₁' : σ₁} {s₂ s₂' : σ₂}
    {rs₁ : List (Res (Nb (EventLinkError E₁ V.VErr)) V.Ev)}
    {rs₂ : List (Res (Nb (EventLinkError E₂ V.VErr)) V.Ev)}
    (h₁ : History stream₁ taken₁ (EventLink.read c V k₁) s₁ rs₁ s₁')
    (h₂ : History stream₂ taken₂ (EventLink.read c V k₂) s₂ rs₂ s₂')
    (hb : (stream₁ s₁').drop (taken₁ s₁) = (stream₂ s₂').drop (taken₂ s₂))
    (hr₁ : ∀ p tail, Framed p → pending stream₁ taken₁ s₁' ≠ p ++ tail)
    (hr₂ : ∀ p tail, Framed p → pending stream₂ taken₂ s₂' ≠ p ++ tail) :
    rs₁.filterMap linkOutcome = rs₂.filterMap linkOutcome := by
  obtain ⟨-, ps, f1, o1, -, b1⟩ := history (link_steps hd₁) h₁
  obtain ⟨-, qs, f2, o2, -, b2⟩ := history (link_steps hd₂) h₂
  rw [o1, o2]
  rw [b1, b2] at hb
  rw [wire_unique prefixFree_id ps qs _ _ f1 f2 (fun p u h => hr₁ p u h) (fun p u h => hr₂ p u h) hb]

/-- A queue that holds less than a packet has been read. -/
example : ∀ p tail, Framed p → pending (σ := Fifo) Prod.fst Prod.snd ([0x10, 0x01, 0x2A, 0x3E], 3) ≠ p ++ tail := by
  rintro p tail ⟨code, ps, -, rfl⟩ h
  have := congrArg List.length h
  simp [pending, frame] at this

/-- **C08.** A sequence of packets is read one by one, whether or not some of them are rejected. -/
theorem C08_one_by_one (hd : Delivers k stream taken) (hp : Prompt k stream taken) (s : σ)
    (packets : List (List UInt8)) (tail : List UInt8) (hf : ∀ p ∈ packets, Framed p)
    (hs : pending stream taken s = packets.flatten ++ tail) :
    (callTimes (EventLink.read c V k) packets.length s).1 =
      packets.map (fun p => linkResult (Event.new c V p)) ∧
    taken (callTimes (EventLink.read c V k) packets.length s).2 = taken s + packets.flatten.length := by
  induction packets generalizing s tail with
  | nil => exact ⟨rfl, rfl⟩
  | cons p ps ih =>
    obtain ⟨code, params, hl, rfl⟩ := hf p (.head _)
    have hs' : pending stream taken s = code :: UInt8.ofNat params.length :: params ++
        (ps.flatten ++ tail) := by rw [hs]; simp [frame]
    obtain ⟨s', arrived, h1, h2, h3⟩ := C08_one_packet (c := c) (V := V) hd hp s code params _ hl hs'
    rw [List.append_assoc] at h3
    obtain ⟨i1, i2⟩ := ih s' _ (fun q hq => hf q (.tail _ hq)) h3
    simp only [List.length_cons, callTimes, List.map_cons, h1]
    refine ⟨by rw [i1]; rfl, ?_⟩
    rw [i2, h2]
    simp only [frame, List.flatten_cons, List.length_append, List.length_cons]
    omega

/-- A hardware error packet and the beginning of the next packet. -/
example : ∃ s', EventLink.read ⟨false, false⟩ demoVendor fifo ([0x10, 0x01, 0x2A, 0x3E], 0) =
    (.ok (.hardwareError ⟨0x2A⟩), s') := by
  obtain ⟨s', -, h, -⟩ := C08_one_packet (c := ⟨false, false⟩) (V := demoVendor) fifo_delivers fifo_prompt
    ([0x10, 0x01, 0x2A, 0x3E], 0) 0x10 [0x2A] [0x3E] (by decide) rfl
  exact ⟨s', h⟩

/-- The queue holds two of the three bytes of a packet. -/
example : pending (σ := Fifo) Prod.fst Prod.snd ([0x10, 0x01], 0) ++ [0x2A] =
    0x10 :: UInt8.ofNat [(0x2A : UInt8)].length :: [0x2A] := rfl

/-- A history of the slow controller in which the packet arrives byte by byte. -/
example : ∃ s', History (·.queue.1) (·.queue.2) (EventLink.read ⟨false, false⟩ demoVendor slow)
    ⟨([], 0), [0x10, 0x01, 0x2A], 0⟩
    [.err .wouldBlock, .ok (.hardwareError ⟨0x2A⟩), .err (.other (.comm ()))] s' :=
  ⟨_, .call (by rw [linkRead_eq]; rfl) (.call (by rw [linkRead_eq]; rfl)
    (.call (by rw [linkRead_eq]; rfl) (.nil _)))⟩

end Bt
