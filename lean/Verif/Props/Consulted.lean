import Verif.Lemmas.Consulted
import Verif.Lemmas.Askable
import Verif.Props.Returns
import Verif.Spec.Controllers
import Verif.Spec.Demo

/-! # C97: what the code of a vendor is given -/

namespace Bt

open Spec

variable {σ E : Type} {c : Cfg} {V : Vendor} {fs : UInt8 → Res UInt8 V.VStatus}
  {fe : List UInt8 → Res (EvError V.VErr) V.VEvent} {fr : List UInt8 → Res (EvError V.VErr) V.VRet}

/-- **C97** (decoding). However the vendor's functions are changed, decoding a packet gives the same result if they do
the same as before on what `SameOn` names: the whole payload of a complete vendor event, the whole payload of a
complete Command Complete event with a vendor opcode, and a single byte, of a complete packet, that stands where the
standard has a status and is not one of the standard. -/
theorem C97_decoding (packet : List UInt8) (h : SameOn c V fs fe fr packet) :
    Event.new c (reprogrammed V fs fe fr) packet = Event.new c V packet := by
  rcases packet_cases packet with hp | ⟨code, n, ps, rfl, hp⟩ | ⟨code, ps, rfl, hp⟩
  · rw [event_short _ _ _ hp, event_short _ _ _ hp]
  · rw [event_misframed _ _ _ _ _ hp, event_misframed _ _ _ _ _ hp]
  · rw [event_framed _ _ _ _ hp, event_framed _ _ _ _ hp]
    refine dispatch_reprogrammed (fun i hi b hb => ?_) (fun hc => ?_) fun hc n lo hi qs hps hg => ?_
    · refine h.status code ps hp rfl i hi b ?_
      unfold idx at hb
      split at hb
      · cases hb; assumption
      · cases hb
    · subst hc; exact h.event ps hp rfl
    · subst hc hps
      exact h.ret n lo hi qs (by simp only [List.length_cons] at hp; omega) rfl hg

/-- A Disconnection Complete event asks nothing of a vendor if both its statuses are in the standard's table: the
vendor's functions may panic whenever they are called. If one is not, exactly this byte is asked about. A truncated
packet asks nothing. -/
example : SameOn ⟨false, false⟩ demoVendor (fun _ => .panic) (fun _ => .panic) (fun _ => .panic)
      (frame 0x05 [0, 1, 0x90, 0x13]) ∧
    SameOn ⟨false, false⟩ demoVendor (fun b => if b = 0x91 then .ok (0x91 : UInt8) else .panic) (fun _ => .panic)
      (fun _ => .panic) (frame 0x05 [0, 1, 0x90, 0x91]) ∧
    SameOn ⟨false, false⟩ demoVendor (fun _ => .panic) (fun _ => .panic) (fun _ => .panic) [0xFF, 3, 1, 2] := by
  refine ⟨⟨?_, ?_, ?_⟩, ⟨?_, ?_, ?_⟩, ⟨?_, ?_, ?_⟩⟩
  · intro ps _ h; injection h with h; cases h
  · intro _ _ _ ps _ h; injection h with h; cases h
  · intro code ps _ h i hi b hb hs
    injection h with h1 h; injection h with _ h
    subst h1 h
    replace hi : i ∈ [0, 3] := hi
    simp only [List.mem_cons, List.not_mem_nil, or_false] at hi
    rcases hi with rfl | rfl <;> cases hb <;> exact absurd hs (by decide)
  · intro ps _ h; injection h with h; cases h
  · intro _ _ _ ps _ h; injection h with h; cases h
  · intro code ps _ h i hi b hb hs
    injection h with h1 h; injection h with _ h
    subst h1 h
    replace hi : i ∈ [0, 3] := hi
    simp only [List.mem_cons, List.not_mem_nil, or_false] at hi
    rcases hi with rfl | rfl <;> cases hb
    · exact absurd hs (by decide)
    · rfl
  · intro ps _ h
    injection h with _ h; injection h with h h'
    subst h'; cases h
  · intro _ _ _ ps _ h; injection h with h; cases h
  · intro code ps _ h
    injection h with _ h; injection h with h h'
    subst h'; cases h

/-- **C97** (a vendor event). The vendor's function gets all the parameters of a complete packet, without the header,
and its result is the result. -/
theorem C97_vendor_event (ps : List UInt8) (h : ps.length ≤ 255) :
    Event.new c V (frame 0xFF ps) = (V.eventNew ps).bind fun e => .ok (.vendor e) := by
  rw [event_framed _ _ _ _ h]
  rfl

/-- **C97** (a reply to a vendor command). The vendor's function gets all the parameters of the event, from the number
of commands on. -/
theorem C97_vendor_reply (n lo hi : UInt8) (ps : List UInt8) (h : ps.length ≤ 252) (hg : hi.toNat / 4 = 0x3F) :
    Event.new c V (frame 0x0E (n :: lo :: hi :: ps)) =
      (V.retNew (n :: lo :: hi :: ps)).bind fun r => .ok (.commandComplete ⟨n, .vendor r⟩) := by
  have hv : VendorOpcode (UInt16.ofNat (lo.toNat + 256 * hi.toNat)) := by
    have := lo.toNat_lt
    have := hi.toNat_lt
    unfold VendorOpcode
    rw [UInt16.toNat_ofNat']
    omega
  have := C21_vendor c V n _ ps h hv
  rw [le16_u16] at this
  rw [show n :: lo :: hi :: ps = n :: [lo, hi] ++ ps from rfl, this]
  cases V.retNew (n :: [lo, hi] ++ ps) <;> rfl

example : Event.new ⟨false, false⟩ demoVendor (frame 0xFF [7, 8]) = .ok (.vendor [7, 8]) ∧
    Event.new ⟨false, false⟩ demoVendor (frame 0x0E [1, 5, 0xFC, 0]) =
      .ok (.commandComplete ⟨1, .vendor [1, 5, 0xFC, 0]⟩) :=
  ⟨C97_vendor_event _ (by decide), C97_vendor_reply 1 5 0xFC [0] (by decide) (by decide)⟩

/-- **C97** (`uart`). Reading from any controller gives the same results and leaves it in the same state, if the
functions do the same on what follows the indicator in the bytes that the controller hands over, if it hands over
any after the two calls of `peek`. -/
theorem C97_uart (k : Controller σ E) (s : σ) (h : ∀ s₁ l s₂ got s₃, k.peek 0 s = (.ok 0x04, s₁) →
      k.peek 2 s₁ = (.ok l, s₂) → k.readInto (3 + l.toNat) s₂ = (.ok got, s₃) →
      SameOn c V fs fe fr (got.val.drop 1)) :
    Uart.read c (reprogrammed V fs fe fr) k s =
      ((Uart.read c V k s).1.mapOk fun | .event e => .event e, (Uart.read c V k s).2) := by
  rw [uartRead_eq, uartRead_eq]
  rcases h0 : k.peek 0 s with ⟨r0, s₁⟩
  cases r0 with
  | panic => rfl
  | err e => rfl
  | ok x =>
    dsimp only
    split
    · rename_i hx
      subst hx
      rcases h2 : k.peek 2 s₁ with ⟨r2, s₂⟩
      cases r2 with
      | panic => rfl
      | err e => rfl
      | ok l =>
        dsimp only
        rcases hr : k.readInto (3 + l.toNat) s₂ with ⟨r3, s₃⟩
        cases r3 with
        | panic => rfl
        | err e => rfl
        | ok got =>
          dsimp only
          rw [C97_decoding _ (h _ _ _ _ _ h0 h2 hr)]
          cases Event.new c V (got.val.drop 1) <;> rfl
    · rfl

/-- A Hardware Error event asks nothing of a vendor. -/
theorem hardwareError_asks_nothing (b : UInt8) : SameOn c V fs fe fr [0x10, 1, b] := by
  refine ⟨?_, ?_, ?_⟩
  · intro ps _ h; injection h with h; cases h
  · intro _ _ _ ps _ h; injection h with h; cases h
  · intro code ps _ h i hi
    injection h with h
    subst h
    cases hi

/-- The vendor's functions may panic whenever they are called: an event of the standard is read all the same. -/
example : Uart.read ⟨false, false⟩ (reprogrammed demoVendor (fun _ => .panic) (fun _ => .panic) (fun _ => .panic)) fifo
      ([0x04, 0x10, 1, 7], 0) = (.ok (.event (.hardwareError ⟨7⟩)), ([0x04, 0x10, 1, 7], 4)) := by
  rw [C97_uart (V := demoVendor) (fs := fun _ => .panic) (fe := fun _ => .panic) (fr := fun _ => .panic) fifo
    ([0x04, 0x10, 1, 7], 0) (by
      intro s₁ l s₂ got s₃ h0 h2 h3
      cases h0; cases h2; cases h3
      exact hardwareError_asks_nothing 7), uartRead_eq]
  rfl

/-- **C97** (`event_link`). -/
theorem C97_event_link (k : Controller σ E) (s : σ) (h : ∀ l s₁ got s₂, k.peek 1 s = (.ok l, s₁) →
      k.readInto (2 + l.toNat) s₁ = (.ok got, s₂) → SameOn c V fs fe fr got.val) :
    EventLink.read c (reprogrammed V fs fe fr) k s = EventLink.read c V k s := by
  rw [linkRead_eq, linkRead_eq]
  rcases h0 : k.peek 1 s with ⟨r0, s₁⟩
  cases r0 with
  | panic => rfl
  | err e => rfl
  | ok l =>
    dsimp only
    rcases hr : k.readInto (2 + l.toNat) s₁ with ⟨r3, s₃⟩
    cases r3 with
    | panic => rfl
    | err e => rfl
    | ok got =>
      dsimp only
      rw [C97_decoding _ (h _ _ _ _ h0 hr)]
      cases Event.new c V got.val <;> rfl

example : EventLink.read ⟨false, false⟩ (reprogrammed demoVendor (fun _ => .panic) (fun _ => .panic) (fun _ => .panic))
      fifo ([0x10, 1, 7], 0) = (.ok (.hardwareError ⟨7⟩), ([0x10, 1, 7], 3)) := by
  rw [C97_event_link (V := demoVendor) (fs := fun _ => .panic) (fe := fun _ => .panic) (fr := fun _ => .panic) fifo
    ([0x10, 1, 7], 0) (by
      intro l s₁ got s₂ h0 h2
      cases h0; cases h2
      exact hardwareError_asks_nothing 7), linkRead_eq]
  rfl

end Bt
