import Verif.Props.Streams
import Verif.Spec.Mixed
import Verif.Spec.Controllers
import Verif.Spec.Demo

/-! # C100: an application can take other packets from the UART itself -/

namespace Bt

open Spec

variable {σ E : Type} {c : Cfg} {V : Vendor} {k : Controller σ E} {stream : σ → List UInt8} {taken : σ → Nat}
  {take : UInt8 → Ctl σ (Nb E) (List UInt8)} {Other : List UInt8 → Prop}

/-- A call takes nothing and tells nothing, or takes one packet and tells it. -/
theorem any_step (hd : Delivers k stream taken) (ht : TakesOther stream taken take Other) {s s' : σ}
    {r : Res (Nb (UartError E V.VErr)) (UartPacket V ⊕ List UInt8)}
    (h : readAny (Uart.read c V k) take s = (r, s')) :
    stream s <+: stream s' ∧
    ((taken s' = taken s ∧ news r = none ∧ ∀ b, r ≠ .err (.other (.badPacketType b))) ∨
     ∃ p : Mixed, p.Good Other ∧ taken s' = taken s + p.bytes.length ∧
       (stream s').drop (taken s) = p.bytes ++ (stream s').drop (taken s') ∧ news r = some (p.news c V)) := by
  unfold readAny at h
  rcases hr : Uart.read c V k s with ⟨r₁, s₁⟩
  rw [hr] at h
  obtain ⟨hs, h1⟩ := uart_step hd hr
  rcases h1 with ⟨ht1, rfl | ⟨e, rfl⟩⟩ | ⟨ht1, b, hb, hg, rfl⟩ | ⟨code, ps, hl, ht1, hdr, rfl⟩
  · cases h
    exact ⟨hs, .inl ⟨ht1, rfl, by simp⟩⟩
  · cases h
    exact ⟨hs, .inl ⟨ht1, rfl, by simp⟩⟩
  · simp only at h
    rcases hq : take b s₁ with ⟨r₂, s₂⟩
    rw [hq] at h
    obtain ⟨hs', h2⟩ := ht b s₁ r₂ s₂ hb (by unfold pending; rw [List.getElem?_drop, ht1]; exact hg) hq
    rcases h2 with ⟨ht2, e, rfl⟩ | ⟨q, rfl, ho, ht2, hdr⟩
    · cases e with
      | wouldBlock => cases h; exact ⟨hs.trans hs', .inl ⟨by rw [ht2, ht1], rfl, by simp⟩⟩
      | other e => cases h; exact ⟨hs.trans hs', .inl ⟨by rw [ht2, ht1], rfl, by simp⟩⟩
    · cases h
      rw [ht1] at ht2 hdr
      exact ⟨hs.trans hs', .inr ⟨.other q, ho, ht2, hdr, rfl⟩⟩
  · refine ⟨?_, .inr ⟨.event (frame code ps), ⟨code, ps, hl, rfl⟩, ?_, ?_, ?_⟩⟩
    all_goals
      cases he : Event.new c V (frame code ps) <;> rw [he] at h <;> simp only [uartResult] at h <;> cases h
    all_goals first
      | exact hs
      | exact hdr
      | (rw [ht1]; simp [Mixed.bytes, frame]; omega)
      | (simp only [news, Mixed.news, he])

theorem mixedBytes_cons (p : Mixed) (ps : List Mixed) : mixedBytes (p :: ps) = p.bytes ++ mixedBytes ps := by
  simp [mixedBytes]

/-- **C100.** In every history of calls, failures and arrivals: what the application is told are the packets that
were received, events and others, in order, each one once and whole; what has been taken from the controller is
exactly these packets. It is never given `BadPacketType`. -/
theorem C100_history (hd : Delivers k stream taken) (ht : TakesOther stream taken take Other) {s s' : σ}
    {rs : List (Res (Nb (UartError E V.VErr)) (UartPacket V ⊕ List UInt8))}
    (h : History stream taken (readAny (Uart.read c V k) take) s rs s') :
    (∃ packets : List Mixed, (∀ p ∈ packets, p.Good Other) ∧ rs.filterMap news = packets.map (Mixed.news c V) ∧
      taken s' = taken s + (mixedBytes packets).length ∧
      (stream s').drop (taken s) = mixedBytes packets ++ pending stream taken s') ∧
    ∀ b, .err (.other (.badPacketType b)) ∉ rs := by
  suffices hk : stream s <+: stream s' ∧ (∃ packets : List Mixed, (∀ p ∈ packets, p.Good Other) ∧
      rs.filterMap news = packets.map (Mixed.news c V) ∧ taken s' = taken s + (mixedBytes packets).length ∧
      (stream s').drop (taken s) = mixedBytes packets ++ pending stream taken s') ∧
    ∀ b, .err (.other (.badPacketType b)) ∉ rs from hk.2
  induction h with
  | nil s => exact ⟨List.prefix_rfl, ⟨[], by simp, rfl, rfl, rfl⟩, by simp⟩
  | wait hs hw _ ih =>
    obtain ⟨hs', ⟨ps, h1, h2, h3, h4⟩, h5⟩ := ih
    rw [hw] at h3 h4
    exact ⟨hs.trans hs', ⟨ps, h1, h2, h3, h4⟩, h5⟩
  | @call s r s₁ rs s' hr _ ih =>
    obtain ⟨hs', ⟨ps, h1, h2, h3, h4⟩, h5⟩ := ih
    obtain ⟨hs, ⟨hw, ho, hn⟩ | ⟨p, hp, hw, hb, ho⟩⟩ := any_step hd ht hr
    · rw [hw] at h3 h4
      refine ⟨hs.trans hs', ⟨ps, h1, by rw [List.filterMap_cons, ho]; exact h2, h3, h4⟩, fun b hb => ?_⟩
      rcases List.mem_cons.mp hb with hb | hb
      · exact hn b hb.symm
      · exact h5 b hb
    · refine ⟨hs.trans hs', ⟨p :: ps, ?_, ?_, ?_, ?_⟩, fun b hb => ?_⟩
      · intro q hq
        rcases List.mem_cons.mp hq with rfl | hq
        · exact hp
        · exact h1 q hq
      · rw [List.filterMap_cons, ho]
        simp only [List.map_cons, h2]
      · rw [mixedBytes_cons, List.length_append]
        omega
      · rw [mixedBytes_cons, List.append_assoc, ← h4]
        obtain ⟨t, ht'⟩ := hs'
        have hle : p.bytes.length ≤ ((stream s₁).drop (taken s)).length := by rw [hb]; simp
        rw [List.length_drop] at hle
        by_cases hle' : taken s ≤ (stream s₁).length
        · rw [← ht', List.drop_append_of_le_length hle', hb, hw, List.append_assoc,
            List.drop_append_of_le_length (by omega)]
        · have h0 : p.bytes = [] := by
            have : (stream s₁).drop (taken s) = [] := List.drop_of_length_le (by omega)
            rw [this] at hb
            exact (List.append_eq_nil_iff.mp hb.symm).1
          rw [hw, h0]
          rfl
      · rcases List.mem_cons.mp hb with hb | hb
        · rw [← hb] at ho
          cases ho
        · exact h5 b hb

/-- The result of `readAny` for a packet. -/
theorem any_progress (hd : Delivers k stream taken) (hp : Prompt k stream taken)
    (ht : TakesPromptly stream taken take Other) (hne : ∀ q, Other q → ∃ b : UInt8, b ≠ 0x04 ∧ q[0]? = some b)
    {s : σ} {p : Mixed} {tail : List UInt8} (hg : p.Good Other) (hs : pending stream taken s = p.bytes ++ tail) :
    ∃ s', news (readAny (Uart.read c V k) take s).1 = some (p.news c V) ∧
      (readAny (Uart.read c V k) take s).2 = s' ∧ stream s <+: stream s' ∧ taken s' = taken s + p.bytes.length := by
  cases p with
  | event p =>
    obtain ⟨code, ps, hl, rfl⟩ := hg
    obtain ⟨s', h1, h2, h3⟩ := uart_progress (c := c) (V := V) hd hp hl hs
    refine ⟨s', ?_, ?_, h2, by rw [h3]; simp [Mixed.bytes, frame]; omega⟩ <;>
      (unfold readAny; rw [h1]; cases he : Event.new c V (frame code ps) <;>
        simp only [uartResult, news, Mixed.news, he])
  | other q =>
    obtain ⟨b, hb, hq⟩ := hne q hg
    have hs : pending stream taken s = q ++ tail := hs
    obtain ⟨s₁, h1, h2, h3⟩ := peek_prompt hd hp (s := s) (n := 0) (b := b) (by
      obtain ⟨hlt, -⟩ := List.getElem?_eq_some_iff.mp hq
      rw [hs, List.getElem?_append_left hlt, hq])
    obtain ⟨t, ht'⟩ := pending_mono h2 h3
    rw [hs, List.append_assoc] at ht'
    obtain ⟨s₂, h4, h5, h6⟩ := ht b s₁ q (tail ++ t) hg hq ht'.symm
    have he : readAny (Uart.read c V k) take s = (.ok (.inr q), s₂) := by
      unfold readAny
      rw [uartRead_eq, h1]
      simp only [if_neg hb, h4]
    exact ⟨s₂, by rw [he]; rfl, by rw [he], h2.trans h5, by rw [h6, h3]; rfl⟩

/-- **C100.** If whole packets are pending and the controller serves the calls, each call tells the next packet. -/
theorem C100_one_by_one (hd : Delivers k stream taken) (hp : Prompt k stream taken)
    (ht : TakesPromptly stream taken take Other) (hne : ∀ q, Other q → ∃ b : UInt8, b ≠ 0x04 ∧ q[0]? = some b)
    (packets : List Mixed) (s : σ) (tail : List UInt8) (hg : ∀ p ∈ packets, p.Good Other)
    (hs : pending stream taken s = mixedBytes packets ++ tail) :
    (callTimes (readAny (Uart.read c V k) take) packets.length s).1.map news =
      packets.map (fun p => some (p.news c V)) ∧
    taken (callTimes (readAny (Uart.read c V k) take) packets.length s).2 =
      taken s + (mixedBytes packets).length := by
  induction packets generalizing s tail with
  | nil => exact ⟨rfl, rfl⟩
  | cons p ps ih =>
    rw [mixedBytes_cons, List.append_assoc] at hs
    obtain ⟨s', h1, rfl, h3, h4⟩ := any_progress (c := c) (V := V) hd hp ht hne (hg p (.head _)) hs
    obtain ⟨t, ht'⟩ := prefix_drop h3 (taken s)
    have hs' : pending stream taken (readAny (Uart.read c V k) take s).2 = mixedBytes ps ++ (tail ++ t) := by
      unfold pending at hs ⊢
      rw [h4, ← List.drop_drop, ← ht', hs, List.append_assoc, List.drop_left, List.append_assoc]
    obtain ⟨i1, i2⟩ := ih _ _ (fun q hq => hg q (.tail _ hq)) hs'
    simp only [List.length_cons, callTimes, List.map_cons, h1]
    refine ⟨by rw [i1], ?_⟩
    rw [i2, h4, mixedBytes_cons, List.length_append]
    omega

/-! ## Data packets -/

/-- The bytes taken by a successful `read_into`. -/
theorem taken_bytes (hd : Delivers k stream taken) {n : Nat} {s s' : σ} {got : Arr n}
    (h : k.readInto n s = (.ok got, s')) :
    stream s <+: stream s' ∧ taken s' = taken s + got.val.length ∧
      (stream s').drop (taken s) = got.val ++ (stream s').drop (taken s') := by
  obtain ⟨-, h1, -, h2⟩ := hd.readInto _ _ _ _ h
  obtain ⟨h3, h4⟩ := h2 got rfl
  refine ⟨h1, by rw [h3, got.len], ?_⟩
  rw [h3, ← h4, ← List.drop_drop, List.take_append_drop]

theorem dataPacket_of_acl {g : List UInt8} {lo hi : UInt8} (hl : g.length = 5 + (lo.toNat + 256 * hi.toNat))
    (h0 : g[0]? = some 0x02) (h3 : g[3]? = some lo) (h4 : g[4]? = some hi) : DataPacket g := by
  match g, hl, h0, h3, h4 with
  | a :: b :: d :: e :: f :: g, hl, h0, h3, h4 =>
    simp only [List.getElem?_cons_zero, List.getElem?_cons_succ, Option.some.injEq] at h0 h3 h4
    subst h0 h3 h4
    exact .acl _ _ _ _ _ (by simp only [List.length_cons] at hl; omega)

theorem dataPacket_of_synchronous {g : List UInt8} {n : UInt8} (hl : g.length = 4 + n.toNat)
    (h0 : g[0]? = some 0x03) (h3 : g[3]? = some n) : DataPacket g := by
  match g, hl, h0, h3 with
  | a :: b :: d :: e :: g, hl, h0, h3 =>
    simp only [List.getElem?_cons_zero, List.getElem?_cons_succ, Option.some.injEq] at h0 h3
    subst h0 h3
    exact .synchronous _ _ _ _ (by simp only [List.length_cons] at hl; omega)

/-- **C100.** `takeData` takes data packets, on every controller that hands out bytes in order. -/
theorem C100_takeData (hd : Delivers k stream taken) : TakesOther stream taken (takeData k) DataPacket := by
  intro b s r s' hb hg h
  have key {n : Nat} {s₁ : σ} {b : UInt8} {i : Nat} (hn : i < n) (hp : stream s <+: stream s₁)
      (ht : taken s₁ = taken s) {got : Arr n} {s₂ : σ} (hr : k.readInto n s₁ = (.ok got, s₂))
      (hg : (stream s₁)[taken s + i]? = some b) : got.val[i]? = some b := by
    obtain ⟨h1, h2, h3⟩ := taken_bytes hd hr
    have := prefix_get h1 hg
    rw [← List.getElem?_drop, ← ht, h3, List.getElem?_append_left (by rw [got.len]; exact hn)] at this
    exact this
  have hg : (stream s)[taken s + 0]? = some b := by
    unfold pending at hg
    rwa [List.getElem?_drop] at hg
  unfold takeData at h
  split at h
  · rename_i hb2
    subst hb2
    change Ctl.bind (k.peek 3) (fun lo => Ctl.bind (k.peek 4) fun hi =>
      Ctl.bind (k.readInto (5 + (lo.toNat + 256 * hi.toNat))) fun got => pure got.val) s = (r, s') at h
    rcases h1 : k.peek 3 s with ⟨r₁, s₁⟩
    obtain ⟨n1, p1, t1, b1⟩ := hd.peek _ _ _ _ h1
    cases r₁ with
    | panic => exact absurd rfl n1
    | err e =>
      rw [Ctl.bind_err h1] at h
      cases h
      exact ⟨p1, .inl ⟨t1, _, rfl⟩⟩
    | ok lo =>
      rw [Ctl.bind_ok h1] at h
      rcases h2 : k.peek 4 s₁ with ⟨r₂, s₂⟩
      obtain ⟨n2, p2, t2, b2⟩ := hd.peek _ _ _ _ h2
      cases r₂ with
      | panic => exact absurd rfl n2
      | err e =>
        rw [Ctl.bind_err h2] at h
        cases h
        exact ⟨p1.trans p2, .inl ⟨by rw [t2, t1], _, rfl⟩⟩
      | ok hi =>
        rw [Ctl.bind_ok h2] at h
        rcases h3 : k.readInto (5 + (lo.toNat + 256 * hi.toNat)) s₂ with ⟨r₃, s₃⟩
        obtain ⟨n3, p3, t3, -⟩ := hd.readInto _ _ _ _ h3
        cases r₃ with
        | panic => exact absurd rfl n3
        | err e =>
          rw [Ctl.bind_err h3] at h
          cases h
          exact ⟨(p1.trans p2).trans p3, .inl ⟨by rw [t3 _ rfl, t2, t1], _, rfl⟩⟩
        | ok got =>
          rw [Ctl.bind_ok h3] at h
          cases h
          obtain ⟨q1, q2, q3⟩ := taken_bytes hd h3
          have p12 := p1.trans p2
          have t12 : taken s₂ = taken s := by rw [t2, t1]
          have b2 := b2 hi rfl
          rw [t1] at b2
          refine ⟨p12.trans p3, .inr ⟨_, rfl, ?_, by rw [q2, t12], by rw [← t12]; exact q3⟩⟩
          exact dataPacket_of_acl got.len (key (by omega) p12 t12 h3 (prefix_get p12 hg))
            (key (by omega) p12 t12 h3 (prefix_get p2 (b1 lo rfl))) (key (by omega) p12 t12 h3 b2)
  · split at h
    · rename_i hb3
      subst hb3
      change Ctl.bind (k.peek 3) (fun n => Ctl.bind (k.readInto (4 + n.toNat)) fun got => pure got.val) s =
        (r, s') at h
      rcases h1 : k.peek 3 s with ⟨r₁, s₁⟩
      obtain ⟨n1, p1, t1, b1⟩ := hd.peek _ _ _ _ h1
      cases r₁ with
      | panic => exact absurd rfl n1
      | err e =>
        rw [Ctl.bind_err h1] at h
        cases h
        exact ⟨p1, .inl ⟨t1, _, rfl⟩⟩
      | ok n =>
        rw [Ctl.bind_ok h1] at h
        rcases h3 : k.readInto (4 + n.toNat) s₁ with ⟨r₃, s₃⟩
        obtain ⟨n3, p3, t3, -⟩ := hd.readInto _ _ _ _ h3
        cases r₃ with
        | panic => exact absurd rfl n3
        | err e =>
          rw [Ctl.bind_err h3] at h
          cases h
          exact ⟨p1.trans p3, .inl ⟨by rw [t3 _ rfl, t1], _, rfl⟩⟩
        | ok got =>
          rw [Ctl.bind_ok h3] at h
          cases h
          obtain ⟨q1, q2, q3⟩ := taken_bytes hd h3
          refine ⟨p1.trans p3, .inr ⟨_, rfl, ?_, by rw [q2, t1], by rw [← t1]; exact q3⟩⟩
          exact dataPacket_of_synchronous got.len (key (by omega) p1 t1 h3 (prefix_get p1 hg))
            (key (by omega) p1 t1 h3 (b1 n rfl))
    · rename_i hb2 hb3
      change Ctl.bind (k.readInto 1) (fun got => pure got.val) s = (r, s') at h
      rcases h3 : k.readInto 1 s with ⟨r₃, s₃⟩
      obtain ⟨n3, p3, t3, -⟩ := hd.readInto _ _ _ _ h3
      cases r₃ with
      | panic => exact absurd rfl n3
      | err e =>
        rw [Ctl.bind_err h3] at h
        cases h
        exact ⟨p3, .inl ⟨t3 _ rfl, _, rfl⟩⟩
      | ok got =>
        rw [Ctl.bind_ok h3] at h
        cases h
        obtain ⟨q1, q2, q3⟩ := taken_bytes hd h3
        refine ⟨p3, .inr ⟨_, rfl, ?_, q2, q3⟩⟩
        have hv := key (by omega) List.prefix_rfl rfl h3 hg
        obtain ⟨x, hx⟩ := List.length_eq_one_iff.1 got.len
        rw [hx] at hv ⊢
        cases hv
        exact .stray _ hb2 hb3 hb

theorem dataPacket_type {q : List UInt8} (h : DataPacket q) : ∃ b : UInt8, b ≠ 0x04 ∧ q[0]? = some b := by
  cases h with
  | acl => exact ⟨_, by decide, rfl⟩
  | synchronous => exact ⟨_, by decide, rfl⟩
  | stray b _ _ h => exact ⟨b, h, rfl⟩

/-- **C100.** … and takes the whole packet if it is pending and the controller serves the calls. -/
theorem C100_takeData_promptly (hd : Delivers k stream taken) (hp : Prompt k stream taken) :
    TakesPromptly stream taken (takeData k) DataPacket := by
  intro b s q tail hq hb hs
  have fin {n : Nat} {s₁ : σ} (hst : stream s <+: stream s₁) (ht : taken s₁ = taken s) (hn : n = q.length) :
      ∃ s', Ctl.bind (k.readInto n) (fun got => pure got.val) s₁ = (.ok q, s') ∧ stream s <+: stream s' ∧
        taken s' = taken s + q.length := by
    obtain ⟨t, ht'⟩ := pending_mono hst ht
    rw [hs, List.append_assoc] at ht'
    obtain ⟨got, s', h1, h2, h3, h4⟩ := readInto_prompt hd hp (s := s₁) (n := n) (by
      rw [← ht', List.length_append]; omega)
    refine ⟨s', ?_, hst.trans h2, by rw [h3, ht, hn]⟩
    rw [Ctl.bind_ok h1, h4, ← ht', hn, List.take_left]
    rfl
  unfold takeData
  cases hq with
  | acl h₀ h₁ lo hi data hl =>
    cases hb
    obtain ⟨s₁, e1, p1, t1⟩ := peek_prompt hd hp (s := s) (n := 3) (b := lo) (by rw [hs]; rfl)
    obtain ⟨s₂, e2, p2, t2⟩ := peek_prompt hd hp (s := s₁) (n := 4) (b := hi)
      (prefix_get (pending_mono p1 t1) (by rw [hs]; rfl))
    obtain ⟨s', h⟩ := fin (n := 5 + (lo.toNat + 256 * hi.toNat)) (p1.trans p2) (by rw [t2, t1]) (by
      simp only [List.length_cons]; omega)
    refine ⟨s', ?_, h.2⟩
    rw [if_pos rfl]
    change Ctl.bind (k.peek 3) (fun lo => Ctl.bind (k.peek 4) fun hi =>
      Ctl.bind (k.readInto (5 + (lo.toNat + 256 * hi.toNat))) fun got => pure got.val) s = _
    rw [Ctl.bind_ok e1, Ctl.bind_ok e2, h.1]
  | synchronous h₀ h₁ n data hl =>
    cases hb
    obtain ⟨s₁, e1, p1, t1⟩ := peek_prompt hd hp (s := s) (n := 3) (b := n) (by rw [hs]; rfl)
    obtain ⟨s', h⟩ := fin (n := 4 + n.toNat) p1 t1 (by simp only [List.length_cons]; omega)
    refine ⟨s', ?_, h.2⟩
    rw [if_neg (by decide), if_pos rfl]
    change Ctl.bind (k.peek 3) (fun n => Ctl.bind (k.readInto (4 + n.toNat)) fun got => pure got.val) s = _
    rw [Ctl.bind_ok e1, h.1]
  | stray b h2 h3 h4 =>
    cases hb
    obtain ⟨s', h⟩ := fin (n := 1) List.prefix_rfl rfl rfl
    refine ⟨s', ?_, h.2⟩
    rw [if_neg h2, if_neg h3]
    exact h.1

/-- What is pending determines the packet. -/
theorem mixed_prefix {p q : Mixed} {r t : List UInt8} (hp : p.Good DataPacket) (hq : q.Good DataPacket)
    (h : p.bytes ++ r = q.bytes ++ t) : p = q ∧ r = t := by
  cases p with
  | event p =>
    cases q with
    | event q =>
      obtain ⟨rfl, rfl⟩ := framed_prefix hp hq (List.cons.inj h).2
      exact ⟨rfl, rfl⟩
    | other q =>
      cases hq with
      | acl => cases (List.cons.inj h).1
      | synchronous => cases (List.cons.inj h).1
      | stray b _ _ h4 => exact absurd (List.cons.inj h).1.symm h4
  | other p =>
    cases q with
    | event q =>
      cases hp with
      | acl => cases (List.cons.inj h).1
      | synchronous => cases (List.cons.inj h).1
      | stray b _ _ h4 => exact absurd (List.cons.inj h).1 h4
    | other q =>
      suffices p.length = q.length by
        obtain ⟨rfl, rfl⟩ := List.append_inj h this
        exact ⟨rfl, rfl⟩
      cases hp with
      | acl _ _ _ _ _ hl =>
        cases hq with
        | acl _ _ _ _ _ hl' =>
          simp only [Mixed.bytes, List.cons_append, List.cons.injEq, true_and] at h
          obtain ⟨-, -, rfl, rfl, -⟩ := h
          simp only [List.length_cons, hl, hl']
        | synchronous => cases (List.cons.inj h).1
        | stray b h2 _ _ => exact absurd (List.cons.inj h).1.symm h2
      | synchronous _ _ _ _ hl =>
        cases hq with
        | acl => cases (List.cons.inj h).1
        | synchronous _ _ _ _ hl' =>
          simp only [Mixed.bytes, List.cons_append, List.cons.injEq, true_and] at h
          obtain ⟨-, -, rfl, -⟩ := h
          simp only [List.length_cons, hl, hl']
        | stray b _ h3 _ => exact absurd (List.cons.inj h).1.symm h3
      | stray b h2 h3 h4 =>
        cases hq with
        | acl => exact absurd (List.cons.inj h).1 h2
        | synchronous => exact absurd (List.cons.inj h).1 h3
        | stray => rfl

theorem mixed_comparable : ∀ (ps qs : List Mixed) (r t : List UInt8), (∀ p ∈ ps, p.Good DataPacket) →
    (∀ q ∈ qs, q.Good DataPacket) → mixedBytes ps ++ r = mixedBytes qs ++ t → ps <+: qs ∨ qs <+: ps
  | [], _, _, _, _, _, _ => .inl List.nil_prefix
  | _ :: _, [], _, _, _, _, _ => .inr List.nil_prefix
  | p :: ps, q :: qs, r, t, hp, hq, h => by
    rw [mixedBytes_cons, mixedBytes_cons, List.append_assoc, List.append_assoc] at h
    obtain ⟨rfl, h'⟩ := mixed_prefix (hp p (.head _)) (hq q (.head _)) h
    rcases mixed_comparable ps qs r t (fun p h => hp p (.tail _ h)) (fun q h => hq q (.tail _ h)) h' with h | h
    · exact .inl (List.cons_prefix_cons.mpr ⟨rfl, h⟩)
    · exact .inr (List.cons_prefix_cons.mpr ⟨rfl, h⟩)

/-- **C100.** For two controllers and two histories in which the same bytes arrive, the bytes arriving in whatever
pieces and the calls failing whenever they like: what the one application is told is the beginning of what the other
is told. -/
theorem C100_schedule_independent {σ₁ σ₂ E₁ E₂ : Type} {k₁ : Controller σ₁ E₁} {k₂ : Controller σ₂ E₂}
    {stream₁ : σ₁ → List UInt8} {stream₂ : σ₂ → List UInt8} {taken₁ : σ₁ → Nat} {taken₂ : σ₂ → Nat}
    (hd₁ : Delivers k₁ stream₁ taken₁) (hd₂ : Delivers k₂ stream₂ taken₂) {s₁ s₁' : σ₁} {s₂ s₂' : σ₂}
    {rs₁ : List (Res (Nb (UartError E₁ V.VErr)) (UartPacket V ⊕ List UInt8))}
    {rs₂ : List (Res (Nb (UartError E₂ V.VErr)) (UartPacket V ⊕ List UInt8))}
    (h₁ : History stream₁ taken₁ (readAny (Uart.read c V k₁) (takeData k₁)) s₁ rs₁ s₁')
    (h₂ : History stream₂ taken₂ (readAny (Uart.read c V k₂) (takeData k₂)) s₂ rs₂ s₂')
    (later : List UInt8)
    (hb : (stream₁ s₁').drop (taken₁ s₁) ++ later = (stream₂ s₂').drop (taken₂ s₂)) :
    rs₁.filterMap news <+: rs₂.filterMap news ∨ rs₂.filterMap news <+: rs₁.filterMap news := by
  obtain ⟨⟨ps, f1, o1, -, b1⟩, -⟩ := C100_history hd₁ (C100_takeData hd₁) h₁
  obtain ⟨⟨qs, f2, o2, -, b2⟩, -⟩ := C100_history hd₂ (C100_takeData hd₂) h₂
  rw [o1, o2]
  rw [b1, b2, List.append_assoc] at hb
  rcases mixed_comparable ps qs _ _ f1 f2 hb with h | h
  · exact .inl (h.map _)
  · exact .inr (h.map _)

/-- A Hardware Error, ACL data of three bytes, a stray byte, synchronous data of one byte, a Data Buffer Overflow. -/
def mixedDemo : List Mixed :=
  [.event [0x10, 0x01, 0x2A], .other [0x02, 0x01, 0x20, 0x03, 0x00, 0x04, 0x10, 0x01], .other [0x55],
    .other [0x03, 0x01, 0x00, 0x01, 0x04], .event [0x1A, 0x01, 0x01]]

theorem mixedDemo_good : ∀ p ∈ mixedDemo, p.Good DataPacket := by
  intro p hp
  simp only [mixedDemo, List.mem_cons, List.not_mem_nil, or_false] at hp
  rcases hp with rfl | rfl | rfl | rfl | rfl
  · exact ⟨0x10, [0x2A], by decide, rfl⟩
  · exact .acl _ _ _ _ _ rfl
  · exact .stray _ (by decide) (by decide) (by decide)
  · exact .synchronous _ _ _ _ rfl
  · exact ⟨0x1A, [0x01], by decide, rfl⟩

example : (callTimes (readAny (Uart.read ⟨false, false⟩ demoVendor fifo) (takeData fifo)) 5
      (mixedBytes mixedDemo, 0)).1.map news =
    [some (.event (.ok (.hardwareError ⟨0x2A⟩))), some (.other [0x02, 0x01, 0x20, 0x03, 0x00, 0x04, 0x10, 0x01]),
      some (.other [0x55]), some (.other [0x03, 0x01, 0x00, 0x01, 0x04]),
      some (.event (.ok (.dataBufferOverflow ⟨.acl⟩)))] :=
  (C100_one_by_one (c := ⟨false, false⟩) (V := demoVendor) fifo_delivers fifo_prompt
    (C100_takeData_promptly fifo_delivers fifo_prompt) (fun _ => dataPacket_type) mixedDemo _ []
    mixedDemo_good (List.append_nil _).symm).1

theorem callTimes_history {ε α : Type} (m : Ctl σ ε α) :
    ∀ (n : Nat) (s : σ), History stream taken m s (callTimes m n s).1 (callTimes m n s).2
  | 0, _ => .nil _
  | n + 1, _ => .call rfl (callTimes_history m n _)

/-- The slow controller: a call that finds too little, a failure, and then synchronous data. -/
example : ∃ s', History (·.queue.1) (·.queue.2)
      (readAny (Uart.read ⟨false, false⟩ demoVendor slow) (takeData slow))
      ⟨([], 0), [0x03, 0x01, 0x00, 0x01, 0xAA, 0x04], 0⟩
      [.err .wouldBlock, .err (.other (.comm ())), .ok (.inr [0x03, 0x01, 0x00, 0x01, 0xAA])] s' :=
  ⟨_, callTimes_history _ 3 _⟩

end Bt
