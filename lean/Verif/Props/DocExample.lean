import Verif.Model.DocExample
import Verif.Props.Streams

/-! # C95: the reading code of the documentation -/

namespace Bt

open Spec

variable {σ E : Type} {k : Controller σ E} {stream : σ → List UInt8} {taken : σ → Nat}

/-- The example in terms of the controller's calls. -/
theorem docRead_eq (k : Controller σ E) (s : σ) : DocExample.read k s =
    match k.peek 0 s with
    | (.panic, s₁) => (.panic, s₁)
    | (.err e, s₁) => (.err e, s₁)
    | (.ok x, s₁) =>
      if x = 0x04 then
        match k.peek 3 s₁ with
        | (.panic, s₂) => (.panic, s₂)
        | (.err e, s₂) => (.err e, s₂)
        | (.ok l, s₂) =>
          match k.readInto (2 + l.toNat) s₂ with
          | (.panic, s₃) => (.panic, s₃)
          | (.err e, s₃) => (.err e, s₃)
          | (.ok got, s₃) => (.ok (got.val ++ (Arr.zero 257).val.drop (2 + l.toNat)), s₃)
      else (.ok (Arr.zero 257).val, s₁) := by
  have e0 : DocExample.read k s = Ctl.bind (k.peek 0) (fun x =>
      if x = 0x04 then Ctl.bind (k.peek 3) (fun l =>
        Ctl.bind (Ctl.lift (slice (Arr.zero 257).val 0 (2 + l.toNat))) (fun _ =>
        Ctl.bind (k.readInto (2 + l.toNat)) (fun got =>
        Ctl.lift (copyRange (Arr.zero 257).val 0 (2 + l.toNat) got.val))))
      else Ctl.lift (.ok (Arr.zero 257).val)) s := rfl
  rw [e0]
  rcases h0 : k.peek 0 s with ⟨r, s₁⟩
  cases r with
  | panic => exact Ctl.bind_panic h0
  | err e => exact Ctl.bind_err h0
  | ok x =>
    rw [Ctl.bind_ok h0]
    simp only
    by_cases hx : x = 0x04
    · rw [if_pos hx, if_pos hx]
      rcases h1 : k.peek 3 s₁ with ⟨r, s₂⟩
      cases r with
      | panic => exact Ctl.bind_panic h1
      | err e => exact Ctl.bind_err h1
      | ok l =>
        have hl := l.toNat_lt
        rw [Ctl.bind_ok h1, Ctl.bind_lift_of_ok (slice_of_le (Nat.zero_le _) (by rw [Arr.len]; omega))]
        simp only
        rcases h2 : k.readInto (2 + l.toNat) s₂ with ⟨r, s₃⟩
        cases r with
        | panic => exact Ctl.bind_panic h2
        | err e => exact Ctl.bind_err h2
        | ok got =>
          rw [Ctl.bind_ok h2]
          have hb := (buffer_steps (ε := Nb E) (size := 257) 0 got (by omega) (by omega)).1
          unfold Ctl.lift
          rw [hb]
    · rw [if_neg hx, if_neg hx]
      rfl

/-- **C95** is false: a Command Complete event is pending, and the example takes three of its seven bytes; the next
`read` finds a parameter where a packet should begin. -/
theorem C95_fails : ¬ ∀ (s : Fifo) (code : UInt8) (ps tail : List UInt8), ps.length ≤ 255 →
    pending Prod.fst Prod.snd s = 0x04 :: code :: UInt8.ofNat ps.length :: ps ++ tail →
    ∃ buf s', DocExample.read fifo s = (.ok buf, s') ∧ s'.2 = s.2 + 3 + ps.length := by
  intro h
  obtain ⟨buf, s', h, ht⟩ := h ([0x04, 0x0E, 4, 1, 0x03, 0x0C, 0], 0) 0x0E [1, 0x03, 0x0C, 0] [] (by decide) rfl
  have h2 : (DocExample.read fifo ([0x04, 0x0E, 4, 1, 0x03, 0x0C, 0], 0)).2.2 = 3 := by decide +kernel
  rw [h] at h2
  simp only [List.length_cons, List.length_nil] at ht h2
  omega

/-- Afterwards the crate's own `read` is out of step. -/
example : (Uart.read ⟨false, false⟩ demoVendor fifo
      (DocExample.read fifo ([0x04, 0x0E, 4, 1, 0x03, 0x0C, 0], 0)).2).1 =
    .err (.other (.badPacketType 1)) := by
  have h : (DocExample.read fifo ([0x04, 0x0E, 4, 1, 0x03, 0x0C, 0], 0)).2 =
    ([0x04, 0x0E, 4, 1, 0x03, 0x0C, 0], 3) := by decide +kernel
  rw [h]
  rfl

/-- **C95**, what holds: the example takes two bytes more than the number in the first *parameter* byte. So it reads
the packet exactly if this byte happens to be one more than the number of parameters. Missing for the full claim:
packets with any other first parameter, and packets without parameters. -/
theorem C95_reads_partial (hd : Delivers k stream taken) (hp : Prompt k stream taken) (s : σ) (code b : UInt8)
    (rest tail : List UInt8)
    (hs : pending stream taken s = 0x04 :: code :: UInt8.ofNat (b :: rest).length :: (b :: rest) ++ tail)
    (hn : 2 + b.toNat ≤ (pending stream taken s).length) :
    ∃ s', DocExample.read k s =
        (.ok ((pending stream taken s).take (2 + b.toNat) ++ List.replicate (255 - b.toNat) 0), s') ∧
      taken s' = taken s + 2 + b.toNat ∧
      (taken s' = taken s + 3 + (b :: rest).length ↔ b.toNat = (b :: rest).length + 1) := by
  obtain ⟨s₁, e1, p1, t1⟩ := peek_prompt hd hp (s := s) (n := 0) (b := 0x04) (by rw [hs]; rfl)
  have hs1 := pending_mono p1 t1
  obtain ⟨s₂, e2, p2, t2⟩ := peek_prompt hd hp (s := s₁) (n := 3) (b := b) (prefix_get hs1 (by rw [hs]; rfl))
  have hs2 := hs1.trans (pending_mono p2 t2)
  obtain ⟨got, s₃, e3, p3, t3, hg⟩ := readInto_prompt hd hp (s := s₂) (n := 2 + b.toNat)
    (Nat.le_trans hn hs2.length_le)
  refine ⟨s₃, ?_, by omega, by omega⟩
  rw [docRead_eq, e1]
  simp only [if_true]
  rw [e2]
  simp only
  rw [e3]
  simp only
  obtain ⟨t, ht⟩ := hs2
  have hz : (Arr.zero 257).val.drop (2 + b.toNat) = List.replicate (255 - b.toNat) (0 : UInt8) := by
    have : (Arr.zero 257).val = List.replicate 257 (0 : UInt8) := rfl
    rw [this, List.drop_replicate]
    congr 1
    omega
  rw [hz, hg, ← ht, List.take_append_of_le_length hn]

/-- A hardware error with the code 2, the only one for which the example takes the whole packet. -/
example : ∃ s', DocExample.read fifo ([0x04, 0x10, 1, 2, 0x04], 0) =
    (.ok ([0x04, 0x10, 1, 2] ++ List.replicate 253 0), s') ∧ s'.2 = 4 := by
  obtain ⟨s', h, ht, -⟩ := C95_reads_partial fifo_delivers fifo_prompt ([0x04, 0x10, 1, 2, 0x04], 0) 0x10 2 [] [0x04]
    rfl (by decide)
  exact ⟨s', h, ht⟩

/-- **C95**: if the first parameter byte asks for more than has arrived, the example would block although a complete
packet is there. -/
theorem C95_blocks (hd : Delivers k stream taken) (hp : Prompt k stream taken) (hq : Quiet k stream taken) (s : σ)
    (code b : UInt8) (rest tail : List UInt8)
    (hs : pending stream taken s = 0x04 :: code :: UInt8.ofNat (b :: rest).length :: (b :: rest) ++ tail)
    (hn : (pending stream taken s).length < 2 + b.toNat) :
    ∃ s', DocExample.read k s = (.err .wouldBlock, s') ∧ stream s' = stream s ∧ taken s' = taken s := by
  obtain ⟨s₁, e1, -, t1⟩ := peek_prompt hd hp (s := s) (n := 0) (b := 0x04) (by rw [hs]; rfl)
  have q1 : stream s₁ = stream s := by have := (hq.peek 0 s).1; rwa [e1] at this
  have hs1 : pending stream taken s₁ = pending stream taken s := by unfold pending; rw [q1, t1]
  obtain ⟨s₂, e2, -, t2⟩ := peek_prompt hd hp (s := s₁) (n := 3) (b := b) (by rw [hs1, hs]; rfl)
  have q2 : stream s₂ = stream s₁ := by have := (hq.peek 3 s₁).1; rwa [e2] at this
  have hs2 : pending stream taken s₂ = pending stream taken s := by rw [← hs1]; unfold pending; rw [q2, t2]
  obtain ⟨q3, q4⟩ := hq.readInto (2 + b.toNat) s₂
  rcases he : k.readInto (2 + b.toNat) s₂ with ⟨r, s₃⟩
  rw [he] at q3 q4
  obtain ⟨-, -, t3, -⟩ := hd.readInto _ _ _ _ he
  have hr : r = .err .wouldBlock := q4 (by rw [hs2]; exact hn)
  subst hr
  refine ⟨s₃, ?_, q3.trans (q2.trans q1), (t3 _ rfl).trans (t2.trans t1)⟩
  rw [docRead_eq, e1]
  simp only [if_true]
  rw [e2]
  simp only
  rw [he]

/-- A hardware error with the code 42: the example waits for 44 bytes. -/
example : ∃ s', DocExample.read fifo ([0x04, 0x10, 1, 42], 0) = (.err .wouldBlock, s') ∧ s'.2 = 0 := by
  obtain ⟨s', h, -, ht⟩ := C95_blocks fifo_delivers fifo_prompt fifo_quiet ([0x04, 0x10, 1, 42], 0) 0x10 42 [] []
    rfl (by decide)
  exact ⟨s', h, ht⟩

/-- **C95**: a packet without parameters is not read before another one has begun to arrive. -/
theorem C95_no_parameters (hd : Delivers k stream taken) (hp : Prompt k stream taken) (hq : Quiet k stream taken)
    (s : σ) (code : UInt8) (hs : pending stream taken s = [0x04, code, 0]) :
    ∃ s', DocExample.read k s = (.err .wouldBlock, s') ∧ stream s' = stream s ∧ taken s' = taken s := by
  obtain ⟨s₁, e1, -, t1⟩ := peek_prompt hd hp (s := s) (n := 0) (b := 0x04) (by rw [hs]; rfl)
  have q1 : stream s₁ = stream s := by have := (hq.peek 0 s).1; rwa [e1] at this
  have hs1 : pending stream taken s₁ = pending stream taken s := by unfold pending; rw [q1, t1]
  obtain ⟨q3, q4⟩ := hq.peek 3 s₁
  rcases he : k.peek 3 s₁ with ⟨r, s₂⟩
  rw [he] at q3 q4
  obtain ⟨-, -, t2, -⟩ := hd.peek _ _ _ _ he
  have hr : r = .err .wouldBlock := q4 (by rw [hs1, hs]; exact Nat.le_refl 3)
  subst hr
  refine ⟨s₂, ?_, q3.trans q1, t2.trans t1⟩
  rw [docRead_eq, e1]
  simp only [if_true]
  rw [he]

/-- An event of the controller without parameters, for which the crate's own `read` does not wait. -/
example : (∃ s', DocExample.read fifo ([0x04, 0xFE, 0], 0) = (.err .wouldBlock, s') ∧ s'.2 = 0) ∧
    ∃ s', Uart.read ⟨false, false⟩ demoVendor fifo ([0x04, 0xFE, 0], 0) =
      (.err (.other (.ble (.unknownEvent 0xFE))), s') ∧ s'.2 = 3 := by
  constructor
  · obtain ⟨s', h, -, ht⟩ := C95_no_parameters fifo_delivers fifo_prompt fifo_quiet ([0x04, 0xFE, 0], 0) 0xFE rfl
    exact ⟨s', h, ht⟩
  · obtain ⟨s', -, h, ht, -⟩ := C01_one_packet (c := ⟨false, false⟩) (V := demoVendor) fifo_delivers fifo_prompt
      ([0x04, 0xFE, 0], 0) 0xFE [] [] (by decide) rfl
    exact ⟨s', h, ht⟩

/-- **C95**: on every controller, whatever the example returns, it has taken either nothing or as many bytes as it
put in the buffer, and it never panics. -/
theorem C95_never_panics (hd : Delivers k stream taken) (s s' : σ) (r : Res (Nb E) (List UInt8))
    (h : DocExample.read k s = (r, s')) :
    r ≠ .panic ∧ (taken s' = taken s ∨
      ∃ b : UInt8, (stream s')[taken s + 3]? = some b ∧ taken s' = taken s + 2 + b.toNat ∧
        r = .ok (((stream s').drop (taken s)).take (2 + b.toNat) ++ List.replicate (255 - b.toNat) 0)) := by
  rw [docRead_eq] at h
  rcases h0 : k.peek 0 s with ⟨r0, s₁⟩
  obtain ⟨n0, p0, t0, -⟩ := hd.peek _ _ _ _ h0
  rw [h0] at h
  cases r0 with
  | panic => exact absurd rfl n0
  | err e => cases h; exact ⟨by simp, .inl t0⟩
  | ok x =>
    simp only at h
    by_cases hx : x = 0x04
    · rw [if_pos hx] at h
      rcases h1 : k.peek 3 s₁ with ⟨r1, s₂⟩
      obtain ⟨n1, p1, t1, g1⟩ := hd.peek _ _ _ _ h1
      rw [h1] at h
      cases r1 with
      | panic => exact absurd rfl n1
      | err e => cases h; exact ⟨by simp, .inl (t1.trans t0)⟩
      | ok b =>
        simp only at h
        rcases h2 : k.readInto (2 + b.toNat) s₂ with ⟨r2, s₃⟩
        obtain ⟨n2, p2, t2, g2⟩ := hd.readInto _ _ _ _ h2
        rw [h2] at h
        cases r2 with
        | panic => exact absurd rfl n2
        | err e => cases h; exact ⟨by simp, .inl ((t2 e rfl).trans (t1.trans t0))⟩
        | ok got =>
          cases h
          obtain ⟨t3, g3⟩ := g2 got rfl
          refine ⟨by simp, .inr ⟨b, ?_, by omega, ?_⟩⟩
          · have := g1 b rfl
            rw [t0] at this
            exact prefix_get p2 this
          · have hz : (Arr.zero 257).val.drop (2 + b.toNat) = List.replicate (255 - b.toNat) (0 : UInt8) := by
              have : (Arr.zero 257).val = List.replicate 257 (0 : UInt8) := rfl
              rw [this, List.drop_replicate]
              congr 1
              omega
            rw [hz, ← g3, t1, t0]
    · rw [if_neg hx] at h
      cases h
      exact ⟨by simp, .inl t0⟩

/-- Another kind of packet is left alone. -/
example : DocExample.read fifo ([0x02, 1, 2, 3], 0) = (.ok (List.replicate 257 0), ([0x02, 1, 2, 3], 0)) := rfl

/-- **C95**, the example of `read_into` (lib.rs 204-222): of two calls that succeed one after the other, the second
continues where the first one ended. -/
theorem C95_read_into_continues (hd : Delivers k stream taken) (s s₁ s₂ : σ) (m n : Nat) (a : Arr m) (b : Arr n)
    (h₁ : k.readInto m s = (.ok a, s₁)) (h₂ : k.readInto n s₁ = (.ok b, s₂)) :
    ((stream s₂).drop (taken s)).take (m + n) = a.val ++ b.val ∧ taken s₂ = taken s + (m + n) := by
  obtain ⟨-, p1, -, g1⟩ := hd.readInto _ _ _ _ h₁
  obtain ⟨t1, g1⟩ := g1 a rfl
  obtain ⟨-, p2, -, g2⟩ := hd.readInto _ _ _ _ h₂
  obtain ⟨t2, g2⟩ := g2 b rfl
  refine ⟨?_, by omega⟩
  rw [List.take_add, List.drop_drop, ← t1, g2]
  congr 1
  obtain ⟨t, ht⟩ := prefix_drop p2 (taken s)
  have hl : m ≤ ((stream s₁).drop (taken s)).length := by
    have := congrArg List.length g1
    rw [List.length_take, a.len] at this
    omega
  rw [← ht, List.take_append_of_le_length hl, g1]

/-- The bytes of the documentation. -/
example : ∃ s₁ s₂, fifo.readInto 3 ([0x12, 0x34, 0x56, 0x78, 0x9a, 0xbc, 0xde, 0xf0], 0) =
      (.ok ⟨[0x12, 0x34, 0x56], rfl⟩, s₁) ∧
    fifo.readInto 4 s₁ = (.ok ⟨[0x78, 0x9a, 0xbc, 0xde], rfl⟩, s₂) := ⟨_, _, rfl, rfl⟩

end Bt
