import Verif.Spec.Streams
import Verif.Lemmas.Bytes
import Verif.Lemmas.Res

/-! # The two `read` methods, call by call -/

namespace Bt

open Spec

variable {σ E : Type} (c : Cfg) (V : Vendor) (k : Controller σ E)

theorem buffer_steps {ε : Type} {size n : Nat} (a : Nat) (got : Arr n) (hn : n ≤ size) (ha : a ≤ n) :
    copyRange (ε := ε) (Arr.zero size).val 0 n got.val =
      .ok (got.val ++ (Arr.zero size).val.drop n) ∧
    slice (ε := ε) (got.val ++ (Arr.zero size).val.drop n) a n = .ok (got.val.drop a) := by
  constructor
  · rw [copyRange_of_le (by omega) (by simpa [Arr.zero] using hn) (by simp [Arr.len])]
    simp
  · rw [slice_of_le ha (by simp [Arr.zero, Arr.len])]
    rw [List.take_append_of_le_length (by simp [Arr.len]), List.take_of_length_le (by simp [Arr.len])]

theorem Ctl.bind_ok {ε α β : Type} {x : Ctl σ ε α} {f : α → Ctl σ ε β} {s s' : σ} {a : α}
    (h : x s = (.ok a, s')) : Ctl.bind x f s = f a s' := by
  unfold Ctl.bind; rw [h]

theorem Ctl.bind_err {ε α β : Type} {x : Ctl σ ε α} {f : α → Ctl σ ε β} {s s' : σ} {e : ε}
    (h : x s = (.err e, s')) : Ctl.bind x f s = (.err e, s') := by
  unfold Ctl.bind; rw [h]

theorem Ctl.bind_panic {ε α β : Type} {x : Ctl σ ε α} {f : α → Ctl σ ε β} {s s' : σ}
    (h : x s = (.panic, s')) : Ctl.bind x f s = (.panic, s') := by
  unfold Ctl.bind; rw [h]

theorem Ctl.mapErr_eq {ε ε' α : Type} {f : ε → ε'} {x : Ctl σ ε α} {s s' : σ} {r : Res ε α}
    (h : x s = (r, s')) : Ctl.mapErr f x s = (r.mapErr f, s') := by
  unfold Ctl.mapErr; rw [h]

theorem Ctl.bind_lift_of_ok {ε α β : Type} {r : Res ε α} {f : α → Ctl σ ε β} {s : σ} {a : α}
    (h : r = .ok a) : Ctl.bind (Ctl.lift r) f s = f a s := by
  subst h; rfl

/-- `read_event` in terms of the controller's calls. -/
theorem readEvent_eq (s : σ) : Uart.readEvent c V k s =
    match k.peek 2 s with
    | (.panic, s₁) => (.panic, s₁)
    | (.err e, s₁) => (.err (Uart.rewrapError e), s₁)
    | (.ok l, s₁) =>
      match k.readInto (3 + l.toNat) s₁ with
      | (.panic, s₂) => (.panic, s₂)
      | (.err e, s₂) => (.err (Uart.rewrapError e), s₂)
      | (.ok got, s₂) => ((Event.new c V (got.val.drop 1)).mapErr (fun e => .other (.ble e)), s₂) := by
  have e0 : Uart.readEvent c V k s = Ctl.bind (Ctl.mapErr Uart.rewrapError (k.peek 2)) (fun l =>
      Ctl.bind (Ctl.lift (slice (Arr.zero 258).val 0 (3 + l.toNat))) (fun _ =>
      Ctl.bind (Ctl.mapErr Uart.rewrapError (k.readInto (3 + l.toNat))) (fun got =>
      Ctl.bind (Ctl.lift (copyRange (Arr.zero 258).val 0 (3 + l.toNat) got.val)) (fun buf =>
      Ctl.bind (Ctl.lift (slice buf 1 (3 + l.toNat))) (fun packet =>
      Ctl.lift ((Event.new c V packet).mapErr (fun e => .other (.ble e)))))))) s := rfl
  rw [e0]
  rcases h1 : k.peek 2 s with ⟨r, s₁⟩
  have h1' := Ctl.mapErr_eq (f := Uart.rewrapError (VE := V.VErr)) h1
  cases r with
  | panic => exact Ctl.bind_panic h1'
  | err e => exact Ctl.bind_err h1'
  | ok l =>
    have hl := l.toNat_lt
    rw [Ctl.bind_ok h1', Ctl.bind_lift_of_ok (slice_of_le (Nat.zero_le _) (by rw [Arr.len]; omega))]
    simp only
    rcases h2 : k.readInto (3 + l.toNat) s₁ with ⟨r, s₂⟩
    have h2' := Ctl.mapErr_eq (f := Uart.rewrapError (VE := V.VErr)) h2
    cases r with
    | panic => exact Ctl.bind_panic h2'
    | err e => exact Ctl.bind_err h2'
    | ok got =>
      have hb {ε : Type} := buffer_steps (ε := ε) (size := 258) 1 got (by omega) (by omega)
      rw [Ctl.bind_ok h2', Ctl.bind_lift_of_ok hb.1, Ctl.bind_lift_of_ok hb.2]
      rfl

/-- `uart::Hci::read` in terms of the controller's calls. -/
theorem uartRead_eq (s : σ) : Uart.read c V k s =
    match k.peek 0 s with
    | (.panic, s₁) => (.panic, s₁)
    | (.err e, s₁) => (.err (Uart.rewrapError e), s₁)
    | (.ok x, s₁) =>
      if x = 0x04 then
        match k.peek 2 s₁ with
        | (.panic, s₂) => (.panic, s₂)
        | (.err e, s₂) => (.err (Uart.rewrapError e), s₂)
        | (.ok l, s₂) =>
          match k.readInto (3 + l.toNat) s₂ with
          | (.panic, s₃) => (.panic, s₃)
          | (.err e, s₃) => (.err (Uart.rewrapError e), s₃)
          | (.ok got, s₃) => (uartResult (Event.new c V (got.val.drop 1)), s₃)
      else (.err (.other (.badPacketType x)), s₁) := by
  have e0 : Uart.read c V k s = Ctl.bind (Ctl.mapErr Uart.rewrapError (k.peek 0)) (fun x =>
      if x = 0x04 then Ctl.bind (Uart.readEvent c V k) (fun e => fun s => (.ok (.event e), s))
      else Ctl.lift (.err (.other (.badPacketType x)))) s := rfl
  rw [e0]
  rcases h0 : k.peek 0 s with ⟨r, s₁⟩
  have h0' := Ctl.mapErr_eq (f := Uart.rewrapError (VE := V.VErr)) h0
  cases r with
  | panic => exact Ctl.bind_panic h0'
  | err e => exact Ctl.bind_err h0'
  | ok x =>
    rw [Ctl.bind_ok h0']
    simp only
    by_cases hx : x = 0x04
    · rw [if_pos hx, if_pos hx]
      have he := readEvent_eq c V k s₁
      rcases h1 : k.peek 2 s₁ with ⟨r, s₂⟩
      rw [h1] at he
      cases r with
      | panic => exact Ctl.bind_panic he
      | err e => exact Ctl.bind_err he
      | ok l =>
        simp only at he ⊢
        rcases h2 : k.readInto (3 + l.toNat) s₂ with ⟨r, s₃⟩
        rw [h2] at he
        cases r with
        | panic => exact Ctl.bind_panic he
        | err e => exact Ctl.bind_err he
        | ok got =>
          simp only at he ⊢
          cases hd : Event.new c V (got.val.drop 1) with
          | panic => rw [hd] at he; exact Ctl.bind_panic he
          | err e => rw [hd] at he; exact Ctl.bind_err he
          | ok e => rw [hd] at he; exact Ctl.bind_ok he
    · rw [if_neg hx, if_neg hx]
      rfl

/-- `event_link::Hci::read` in terms of the controller's calls. -/
theorem linkRead_eq (s : σ) : EventLink.read c V k s =
    match k.peek 1 s with
    | (.panic, s₁) => (.panic, s₁)
    | (.err e, s₁) => (.err (EventLink.rewrapError e), s₁)
    | (.ok l, s₁) =>
      match k.readInto (2 + l.toNat) s₁ with
      | (.panic, s₂) => (.panic, s₂)
      | (.err e, s₂) => (.err (EventLink.rewrapError e), s₂)
      | (.ok got, s₂) => (linkResult (Event.new c V got.val), s₂) := by
  have e0 : EventLink.read c V k s = Ctl.bind (Ctl.mapErr EventLink.rewrapError (k.peek 1)) (fun l =>
      Ctl.bind (Ctl.lift (slice (Arr.zero 257).val 0 (2 + l.toNat))) (fun _ =>
      Ctl.bind (Ctl.mapErr EventLink.rewrapError (k.readInto (2 + l.toNat))) (fun got =>
      Ctl.bind (Ctl.lift (copyRange (Arr.zero 257).val 0 (2 + l.toNat) got.val)) (fun buf =>
      Ctl.bind (Ctl.lift (slice buf 0 (2 + l.toNat))) (fun packet =>
      Ctl.lift ((Event.new c V packet).mapErr (fun e => .other (.ble e)))))))) s := rfl
  rw [e0]
  rcases h1 : k.peek 1 s with ⟨r, s₁⟩
  have h1' := Ctl.mapErr_eq (f := EventLink.rewrapError (VE := V.VErr)) h1
  cases r with
  | panic => exact Ctl.bind_panic h1'
  | err e => exact Ctl.bind_err h1'
  | ok l =>
    have hl := l.toNat_lt
    rw [Ctl.bind_ok h1', Ctl.bind_lift_of_ok (slice_of_le (Nat.zero_le _) (by rw [Arr.len]; omega))]
    simp only
    rcases h2 : k.readInto (2 + l.toNat) s₁ with ⟨r, s₂⟩
    have h2' := Ctl.mapErr_eq (f := EventLink.rewrapError (VE := V.VErr)) h2
    cases r with
    | panic => exact Ctl.bind_panic h2'
    | err e => exact Ctl.bind_err h2'
    | ok got =>
      have hb {ε : Type} := buffer_steps (ε := ε) (size := 257) 0 got (by omega) (by omega)
      rw [Ctl.bind_ok h2', Ctl.bind_lift_of_ok hb.1, Ctl.bind_lift_of_ok hb.2]
      simp only [List.drop_zero]
      cases hd : Event.new c V got.val <;> rfl

/-! ## One call on a controller that keeps its promises -/

theorem prefix_get {a b : List UInt8} {i : Nat} {x : UInt8} (h : a <+: b) (hx : a[i]? = some x) :
    b[i]? = some x := by
  obtain ⟨t, rfl⟩ := h
  obtain ⟨hi, -⟩ := List.getElem?_eq_some_iff.mp hx
  rw [List.getElem?_append_left hi, hx]

theorem ofNat_length {ps : List UInt8} {l : UInt8} (h : ps.length = l.toNat) : UInt8.ofNat ps.length = l := by
  rw [h]; simp

theorem link_packet {X g : List UInt8} {l : UInt8} (hg : X.take (2 + l.toNat) = g)
    (hlen : g.length = 2 + l.toNat) (h1 : X[1]? = some l) :
    ∃ code ps, ps.length = l.toNat ∧ g = frame code ps := by
  subst hg
  rcases X with _ | ⟨a, _ | ⟨b, X⟩⟩
  · simp at h1
  · simp at h1
  · simp only [List.getElem?_cons_succ, List.getElem?_cons_zero, Option.some.injEq] at h1
    subst h1
    rw [show 2 + b.toNat = b.toNat + 1 + 1 by omega, List.take_succ_cons, List.take_succ_cons] at hlen ⊢
    simp only [List.length_cons] at hlen
    have hl : (X.take b.toNat).length = b.toNat := by omega
    exact ⟨a, X.take b.toNat, hl, by rw [frame, ofNat_length hl]⟩

theorem uart_packet {X g : List UInt8} {l : UInt8} (hg : X.take (3 + l.toNat) = g)
    (hlen : g.length = 3 + l.toNat) (h0 : X[0]? = some 4) (h2 : X[2]? = some l) :
    ∃ code ps, ps.length = l.toNat ∧ g = 4 :: frame code ps := by
  subst hg
  rcases X with _ | ⟨a, X⟩
  · simp at h0
  · simp only [List.getElem?_cons_succ, List.getElem?_cons_zero, Option.some.injEq] at h0 h2
    subst h0
    rw [show 3 + l.toNat = 2 + l.toNat + 1 by omega, List.take_succ_cons] at hlen ⊢
    simp only [List.length_cons] at hlen
    obtain ⟨code, ps, hp, he⟩ := link_packet rfl (by omega) h2
    exact ⟨code, ps, hp, by rw [he]⟩

variable {c V k}

/-- One call of `uart::Hci::read`: nothing taken and no packet reported, or a byte that is not the event
indicator, or exactly one packet taken and its decoding reported. -/
theorem uart_step {stream : σ → List UInt8} {taken : σ → Nat} (hd : Delivers k stream taken) {s s' : σ}
    {r : Res (Nb (UartError E V.VErr)) (UartPacket V)} (h : Uart.read c V k s = (r, s')) :
    stream s <+: stream s' ∧
    ((taken s' = taken s ∧ (r = .err .wouldBlock ∨ ∃ e, r = .err (.other (.comm e)))) ∨
     (taken s' = taken s ∧ ∃ b, b ≠ 0x04 ∧ (stream s')[taken s]? = some b ∧
        r = .err (.other (.badPacketType b))) ∨
     (∃ code ps, ps.length ≤ 255 ∧ taken s' = taken s + (3 + ps.length) ∧
        (stream s').drop (taken s) = 0x04 :: frame code ps ++ (stream s').drop (taken s') ∧
        r = uartResult (Event.new c V (frame code ps)))) := by
  rw [uartRead_eq] at h
  rcases h0 : k.peek 0 s with ⟨r0, s₁⟩
  rw [h0] at h
  obtain ⟨np, hp1, ht1, hb1⟩ := hd.peek _ _ _ _ h0
  have fail (e : Nb E) : (Res.err (Uart.rewrapError e) : Res (Nb (UartError E V.VErr)) (UartPacket V)) =
      .err .wouldBlock ∨ ∃ e', (Res.err (Uart.rewrapError e) : Res (Nb (UartError E V.VErr)) (UartPacket V)) =
      .err (.other (.comm e')) := by
    cases e with
    | wouldBlock => exact .inl rfl
    | other e => exact .inr ⟨e, rfl⟩
  cases r0 with
  | panic => exact absurd rfl np
  | err e =>
    obtain ⟨rfl, rfl⟩ := Prod.mk.inj h
    exact ⟨hp1, .inl ⟨ht1, fail e⟩⟩
  | ok x =>
    have hx := hb1 x rfl
    simp only at h
    by_cases h4 : x = 0x04
    · rw [if_pos h4] at h
      subst h4
      rcases h2 : k.peek 2 s₁ with ⟨r2, s₂⟩
      rw [h2] at h
      obtain ⟨np, hp2, ht2, hb2⟩ := hd.peek _ _ _ _ h2
      cases r2 with
      | panic => exact absurd rfl np
      | err e =>
        obtain ⟨rfl, rfl⟩ := Prod.mk.inj h
        exact ⟨hp1.trans hp2, .inl ⟨ht2.trans ht1, fail e⟩⟩
      | ok l =>
        have hl := hb2 l rfl
        simp only at h
        rcases h3 : k.readInto (3 + l.toNat) s₂ with ⟨r3, s₃⟩
        rw [h3] at h
        obtain ⟨np, hp3, ht3, hb3⟩ := hd.readInto _ _ _ _ h3
        cases r3 with
        | panic => exact absurd rfl np
        | err e =>
          obtain ⟨rfl, rfl⟩ := Prod.mk.inj h
          exact ⟨(hp1.trans hp2).trans hp3, .inl ⟨(ht3 _ rfl).trans (ht2.trans ht1), fail e⟩⟩
        | ok got =>
          obtain ⟨rfl, rfl⟩ := Prod.mk.inj h
          obtain ⟨ht, hg⟩ := hb3 got rfl
          have ht' : taken s₂ = taken s := ht2.trans ht1
          rw [ht'] at ht hg
          have g0 : ((stream s₃).drop (taken s))[0]? = some 4 := by
            rw [List.getElem?_drop]
            exact prefix_get (hp2.trans hp3) hx
          have g2 : ((stream s₃).drop (taken s))[2]? = some l := by
            rw [List.getElem?_drop, ← ht1]
            exact prefix_get hp3 hl
          obtain ⟨code, ps, hps, he⟩ := uart_packet hg got.len g0 g2
          have hlt := l.toNat_lt
          refine ⟨(hp1.trans hp2).trans hp3, .inr (.inr ⟨code, ps, by omega, by omega, ?_, ?_⟩)⟩
          · rw [ht, ← he, ← List.drop_drop, ← hg, List.take_append_drop]
          · rw [he]; rfl
    · rw [if_neg h4] at h
      obtain ⟨rfl, rfl⟩ := Prod.mk.inj h
      exact ⟨hp1, .inr (.inl ⟨ht1, x, h4, hx, rfl⟩)⟩

/-- One call of `event_link::Hci::read`. -/
theorem link_step {stream : σ → List UInt8} {taken : σ → Nat} (hd : Delivers k stream taken) {s s' : σ}
    {r : Res (Nb (EventLinkError E V.VErr)) V.Ev} (h : EventLink.read c V k s = (r, s')) :
    stream s <+: stream s' ∧
    ((taken s' = taken s ∧ (r = .err .wouldBlock ∨ ∃ e, r = .err (.other (.comm e)))) ∨
     (∃ code ps, ps.length ≤ 255 ∧ taken s' = taken s + (2 + ps.length) ∧
        (stream s').drop (taken s) = frame code ps ++ (stream s').drop (taken s') ∧
        r = linkResult (Event.new c V (frame code ps)))) := by
  rw [linkRead_eq] at h
  rcases h2 : k.peek 1 s with ⟨r2, s₂⟩
  rw [h2] at h
  obtain ⟨np, hp2, ht2, hb2⟩ := hd.peek _ _ _ _ h2
  have fail (e : Nb E) : (Res.err (EventLink.rewrapError e) : Res (Nb (EventLinkError E V.VErr)) V.Ev) =
      .err .wouldBlock ∨ ∃ e', (Res.err (EventLink.rewrapError e) : Res (Nb (EventLinkError E V.VErr)) V.Ev) =
      .err (.other (.comm e')) := by
    cases e with
    | wouldBlock => exact .inl rfl
    | other e => exact .inr ⟨e, rfl⟩
  cases r2 with
  | panic => exact absurd rfl np
  | err e =>
    obtain ⟨rfl, rfl⟩ := Prod.mk.inj h
    exact ⟨hp2, .inl ⟨ht2, fail e⟩⟩
  | ok l =>
    have hl := hb2 l rfl
    simp only at h
    rcases h3 : k.readInto (2 + l.toNat) s₂ with ⟨r3, s₃⟩
    rw [h3] at h
    obtain ⟨np, hp3, ht3, hb3⟩ := hd.readInto _ _ _ _ h3
    cases r3 with
    | panic => exact absurd rfl np
    | err e =>
      obtain ⟨rfl, rfl⟩ := Prod.mk.inj h
      exact ⟨hp2.trans hp3, .inl ⟨(ht3 _ rfl).trans ht2, fail e⟩⟩
    | ok got =>
      obtain ⟨rfl, rfl⟩ := Prod.mk.inj h
      obtain ⟨ht, hg⟩ := hb3 got rfl
      rw [ht2] at ht hg
      have g1 : ((stream s₃).drop (taken s))[1]? = some l := by
        rw [List.getElem?_drop]
        exact prefix_get hp3 hl
      obtain ⟨code, ps, hps, he⟩ := link_packet hg got.len g1
      have hlt := l.toNat_lt
      refine ⟨hp2.trans hp3, .inr ⟨code, ps, by omega, by omega, ?_, ?_⟩⟩
      · rw [ht, ← he, ← List.drop_drop, ← hg, List.take_append_drop]
      · rw [he]

/-! ## Controllers that answer when they can -/

theorem prefix_drop {a b : List UInt8} (h : a <+: b) (n : Nat) : a.drop n <+: b.drop n := by
  obtain ⟨t, rfl⟩ := h
  rw [List.drop_append]
  exact List.prefix_append _ _

theorem pending_mono {stream : σ → List UInt8} {taken : σ → Nat} {s s' : σ} (h : stream s <+: stream s')
    (ht : taken s' = taken s) : pending stream taken s <+: pending stream taken s' := by
  unfold pending
  rw [ht]
  exact prefix_drop h _

theorem peek_prompt {stream : σ → List UInt8} {taken : σ → Nat} (hd : Delivers k stream taken)
    (hp : Prompt k stream taken) {s : σ} {n : Nat} {b : UInt8} (hb : (pending stream taken s)[n]? = some b) :
    ∃ s', k.peek n s = (.ok b, s') ∧ stream s <+: stream s' ∧ taken s' = taken s := by
  obtain ⟨hlt, -⟩ := List.getElem?_eq_some_iff.mp hb
  obtain ⟨b', h⟩ := hp.peek n s hlt
  rcases he : k.peek n s with ⟨r, s'⟩
  rw [he] at h
  simp only at h
  subst h
  obtain ⟨-, h1, h2, h3⟩ := hd.peek _ _ _ _ he
  have h4 := prefix_get (pending_mono h1 h2) hb
  unfold pending at h4
  rw [h2, List.getElem?_drop, h3 b' rfl] at h4
  cases h4
  exact ⟨s', rfl, h1, h2⟩

theorem readInto_prompt {stream : σ → List UInt8} {taken : σ → Nat} (hd : Delivers k stream taken)
    (hp : Prompt k stream taken) {s : σ} {n : Nat} (hn : n ≤ (pending stream taken s).length) :
    ∃ got s', k.readInto n s = (.ok got, s') ∧ stream s <+: stream s' ∧ taken s' = taken s + n ∧
      got.val = (pending stream taken s).take n := by
  obtain ⟨got, h⟩ := hp.readInto n s hn
  rcases he : k.readInto n s with ⟨r, s'⟩
  rw [he] at h
  simp only at h
  subst h
  obtain ⟨-, h1, -, h3⟩ := hd.readInto _ _ _ _ he
  obtain ⟨h4, h5⟩ := h3 got rfl
  refine ⟨got, s', rfl, h1, h4, ?_⟩
  rw [← h5]
  obtain ⟨t, ht⟩ := prefix_drop h1 (taken s)
  rw [← ht]
  exact List.take_append_of_le_length hn

theorem uart_progress {stream : σ → List UInt8} {taken : σ → Nat} (hd : Delivers k stream taken)
    (hp : Prompt k stream taken) {s : σ} {code : UInt8} {ps tail : List UInt8} (hl : ps.length ≤ 255)
    (hs : pending stream taken s = 0x04 :: frame code ps ++ tail) :
    ∃ s', Uart.read c V k s = (uartResult (Event.new c V (frame code ps)), s') ∧
      stream s <+: stream s' ∧ taken s' = taken s + (3 + ps.length) := by
  obtain ⟨s₁, e1, p1, t1⟩ := peek_prompt hd hp (s := s) (n := 0) (b := 0x04) (by rw [hs]; rfl)
  have hs1 := pending_mono p1 t1
  obtain ⟨s₂, e2, p2, t2⟩ := peek_prompt hd hp (s := s₁) (n := 2) (b := UInt8.ofNat ps.length)
    (prefix_get hs1 (by rw [hs]; rfl))
  have hs2 := hs1.trans (pending_mono p2 t2)
  have hn : (UInt8.ofNat ps.length).toNat = ps.length := by
    rw [UInt8.toNat_ofNat']; omega
  obtain ⟨got, s₃, e3, p3, t3, hg⟩ := readInto_prompt hd hp (s := s₂)
    (n := 3 + (UInt8.ofNat ps.length).toNat) (by
      have := hs2.length_le
      rw [hs] at this
      simp only [frame, List.cons_append, List.length_cons, List.length_append] at this
      omega)
  have hg' : got.val = 0x04 :: frame code ps := by
    obtain ⟨t, ht⟩ := hs2
    rw [hg, ← ht, hs, hn, List.append_assoc]
    rw [List.take_append_of_le_length (by simp [frame]; omega), List.take_of_length_le (by simp [frame]; omega)]
  refine ⟨s₃, ?_, (p1.trans p2).trans p3, by omega⟩
  rw [uartRead_eq, e1]
  simp only [if_true]
  rw [e2]
  simp only
  rw [e3]
  simp only
  rw [hg']
  rfl

theorem link_progress {stream : σ → List UInt8} {taken : σ → Nat} (hd : Delivers k stream taken)
    (hp : Prompt k stream taken) {s : σ} {code : UInt8} {ps tail : List UInt8} (hl : ps.length ≤ 255)
    (hs : pending stream taken s = frame code ps ++ tail) :
    ∃ s', EventLink.read c V k s = (linkResult (Event.new c V (frame code ps)), s') ∧
      stream s <+: stream s' ∧ taken s' = taken s + (2 + ps.length) := by
  obtain ⟨s₂, e2, p2, t2⟩ := peek_prompt hd hp (s := s) (n := 1) (b := UInt8.ofNat ps.length)
    (by rw [hs]; rfl)
  have hs2 := pending_mono p2 t2
  have hn : (UInt8.ofNat ps.length).toNat = ps.length := by
    rw [UInt8.toNat_ofNat']; omega
  obtain ⟨got, s₃, e3, p3, t3, hg⟩ := readInto_prompt hd hp (s := s₂)
    (n := 2 + (UInt8.ofNat ps.length).toNat) (by
      have := hs2.length_le
      rw [hs] at this
      simp only [frame, List.cons_append, List.length_cons, List.length_append] at this
      omega)
  have hg' : got.val = frame code ps := by
    obtain ⟨t, ht⟩ := hs2
    rw [hg, ← ht, hs, hn, List.append_assoc]
    rw [List.take_append_of_le_length (by simp [frame]; omega), List.take_of_length_le (by simp [frame]; omega)]
  refine ⟨s₃, ?_, p2.trans p3, by omega⟩
  rw [linkRead_eq, e2]
  simp only
  rw [e3]
  simp only
  rw [hg']

end Bt
