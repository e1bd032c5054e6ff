import Verif.Lemmas.Target
import Verif.Props.Iterators
import Verif.Props.Commands

/-! # C94: sizes and indices fit a `usize` of 16 bits -/

namespace Bt
open Spec

variable (t : Target) (c : Cfg) (V : Vendor) {ε : Type}

/-- **C94**: on every target, in both builds, every packet that fits in memory is decoded as the model says. -/
theorem C94_decoding (packet : List UInt8) (h : InMemory t packet) :
    t.newEvent c V packet = Event.new c V packet := target_new t c V h

/-- A small machine in a debug build, and a packet whose pairs would take 1021 bytes. -/
example : InMemory ⟨16, true, by decide⟩ [0x13, 1, 255] ∧
    Event.new ⟨false, false⟩ demoVendor [0x13, 1, 255] = .err (.badLength 1 1021) ∧
    Target.mul ⟨16, true, by decide⟩ (ε := Empty) 255 4 = .ok 1020 := ⟨by unfold InMemory; decide, rfl, rfl⟩

/-- **C94**: so is each step through the reports of a slice, from any index. -/
theorem C94_steps {VE : Type} (eventData : List UInt8) (h : InMemory t eventData) (i : Nat) :
    t.innerNext (VE := VE) eventData i = innerNext eventData i := target_innerNext t h

/-- The bound is needed: of a slice of 65530 bytes, too long for a machine of 16 bits, the last step would wrap
around and would be taken back to the beginning. -/
example : Target.add ⟨16, false, by decide⟩ (ε := Empty) 65529 8 = .ok 1 ∧
    Target.add ⟨16, true, by decide⟩ (ε := Empty) 65529 8 = .panic ∧
    ¬ InMemory ⟨16, false, by decide⟩ (List.replicate 65530 0) ∧ InMemory ⟨32, true, by decide⟩ (List.replicate 65530 0) := by
  refine ⟨rfl, rfl, ?_, ?_⟩ <;> unfold InMemory <;> rw [List.length_replicate] <;> decide

/-- **C94**: on every target, in both builds, reading from either link does as the model says, for every
controller. -/
theorem C94_reading {σ E : Type} (k : Controller σ E) (s : σ) :
    t.uartRead c V k s = Uart.read c V k s ∧ t.linkRead c V k s = EventLink.read c V k s := by
  have hh := target_half t
  have hb : ∀ b : UInt8, b.toNat < 256 := fun b => b.toNat_lt
  have h3 : ∀ {ε' : Type} (b : UInt8), t.add (ε := ε') Uart.EVENT_PACKET_HEADER_LENGTH b.toNat =
      .ok (Uart.EVENT_PACKET_HEADER_LENGTH + b.toNat) := fun b =>
    target_add t (by have := hb b; simp only [Uart.EVENT_PACKET_HEADER_LENGTH]; omega)
  have h2 : ∀ {ε' : Type} (b : UInt8), t.add (ε := ε') EventLink.EVENT_HEADER_LENGTH b.toNat =
      .ok (EventLink.EVENT_HEADER_LENGTH + b.toNat) := fun b =>
    target_add t (by have := hb b; simp only [EventLink.EVENT_HEADER_LENGTH]; omega)
  have hn : ∀ (n : Nat) (p : List UInt8), n ≤ 258 → p.length ≤ n → t.newEvent c V p = Event.new c V p :=
    fun n p h1 h2 => target_new t c V (by unfold InMemory; omega)
  have hu : t.uartReadEvent c V k = Uart.readEvent c V k := by
    unfold Target.uartReadEvent Uart.readEvent
    refine ctl_congr fun b => ?_
    rw [h3, lift_ok_bind]
    refine ctl_congr fun _ => ctl_congr fun got => ctl_congr fun buf => ?_
    rw [lift_ok_bind]
    refine lift_slice_congr fun p hp => ?_
    have := hb b
    rw [hn _ p (by simp only [Uart.EVENT_PACKET_HEADER_LENGTH]; omega) hp]
  have hl : t.linkRead c V k = EventLink.read c V k := by
    unfold Target.linkRead EventLink.read
    refine ctl_congr fun b => ?_
    rw [h2, lift_ok_bind]
    refine ctl_congr fun _ => ctl_congr fun got => ctl_congr fun buf => ?_
    rw [lift_ok_bind]
    refine lift_slice_congr fun p hp => ?_
    have := hb b
    rw [hn _ p (by simp only [EventLink.EVENT_HEADER_LENGTH]; omega) hp]
  refine ⟨?_, by rw [hl]⟩
  unfold Target.uartRead Uart.read
  rw [hu]

/-- The longest packet, on the smallest machine. -/
example : Target.add ⟨16, true, by decide⟩ (ε := Empty) Uart.EVENT_PACKET_HEADER_LENGTH (255 : UInt8).toNat = .ok 258 :=
  rfl

/-- **C94**: on every target, in both builds, any number of calls of the iterators of a decoded event return what
the model says; so do those of any report, also of one that the test helper has made. -/
theorem C94_iterators (packet : List UInt8) (e : NumberOfCompletedPackets)
    (h : Event.new c V packet = .ok (.numberOfCompletedPackets e)) (r : LeAdvertisingReport) (n : Nat) :
    calls (t.completedNext (ε := ε) e) n 0 = calls (e.iterNext (ε := ε)) n 0 ∧
    calls (t.reportNext (ε := ε) r) n 0 = calls (r.iterNext (ε := ε)) n 0 := by
  have he : e.numHandles < 256 := by
    obtain ⟨code, ps, rfl, hl, hs⟩ := (C09_sound_and_complete c V _ _).mp h
    cases hs with
    | @numberOfCompletedPackets xs buf hz =>
      have := pairsBytes_length xs
      simp only [List.length_cons] at hl ⊢
      omega
  rw [funext (target_completedNext t e he), funext (target_reportNext t r)]
  exact ⟨rfl, rfl⟩

/-- An event with two pairs, asked for four times on a machine of 16 bits. -/
example : ∃ e, Event.new ⟨false, false⟩ demoVendor [0x13, 9, 2, 1, 2, 3, 4, 5, 6, 7, 8] =
      .ok (.numberOfCompletedPackets e) ∧
    calls (Target.completedNext ⟨16, true, by decide⟩ (ε := Empty) e) 4 0 =
      .ok [some ⟨⟨0x0201⟩, 0x0403⟩, some ⟨⟨0x0605⟩, 0x0807⟩, none, none] := by
  obtain ⟨e, h1, h2⟩ := C14_every_list ⟨false, false⟩ demoVendor (ε := Empty)
    [(0x0201, 0x0403), (0x0605, 0x0807)] (by decide)
  refine ⟨e, h1, ?_⟩
  rw [(C94_iterators _ _ demoVendor _ e h1 ⟨0, Arr.zero _⟩ 4).1]
  exact completed_calls e 4 0 _ h2

/-- **C94**: on every target, in both builds, advertisement structures have the length and are written as the model
says, into buffers of any length; so do reports that the test helper makes. -/
theorem C94_writing (a : Advertisement) (h : InMemory t (borrowed a)) (buf : List UInt8)
    (as : List LeAdvertisement) (ha : ∀ x ∈ as, InMemory t x.data) :
    t.adLen (ε := ε) a = .ok a.len ∧
    t.adCopyIntoSlice (ε := ε) a buf = a.copyIntoSlice buf ∧
    t.reportWithAdvertisements (ε := ε) as = reportWithAdvertisements as :=
  ⟨target_adLen t h, target_adCopy t h buf, target_helper t ha⟩

/-- A name of 300 bytes, whose length does not fit one byte, on the smallest machine. -/
example : InMemory ⟨16, true, by decide⟩ (borrowed (.completeLocalName (List.replicate 300 0x41))) ∧
    Target.adLen ⟨16, true, by decide⟩ (ε := Empty) (.completeLocalName (List.replicate 300 0x41)) = .ok 302 := by
  have h : InMemory ⟨16, true, by decide⟩ (borrowed (.completeLocalName (List.replicate 300 0x41))) := by
    unfold InMemory borrowed
    rw [List.length_replicate]
    decide
  exact ⟨h, by rw [target_adLen _ h, Advertisement.len, List.length_replicate]⟩

/-- **C94**: on every target, in both builds, the commands that compute with lengths do as the model says: the two
with advertising data, with data of any length, and the validation of random addresses. -/
theorem C94_commands {σ E VS : Type} (H : HciHeader) (k : Controller σ E) (op : Opcode) (data : List UInt8) (s : σ)
    (a : BdAddr) :
    t.setOutboundData (VS := VS) H k op data s = setOutboundData (VS := VS) H k op data s ∧
    t.validateRandomAddress (E := E) (VS := VS) a = validateRandomAddress a := by
  have hh := target_half t
  constructor
  · unfold Target.setOutboundData setOutboundData
    split
    · rfl
    · rename_i h
      have hc : ∀ (p : List UInt8), t.copyInclusive (ε := Nb (HostError E VS)) p 1 data.length data =
          copyRange p 1 (data.length + 1) data := by
        intro p
        rw [Target.copyInclusive, if_pos (by omega)]
      simp only [hc]
  · have hp : ∀ n, n < 6 → t.popCountExceptTop2Bits (ε := HostError E VS) (a.val.val.drop n) =
        popCountExceptTop2Bits (a.val.val.drop n) := by
      intro n hn
      have : 1 ≤ (a.val.val.drop n).length := by rw [List.length_drop, a.val.len]; omega
      unfold Target.popCountExceptTop2Bits popCountExceptTop2Bits
      rw [target_sub t this]
      rfl
    unfold Target.validateRandomAddress validateRandomAddress sliceFrom
    rw [a.val.len]
    simp only [show (0 : Nat) ≤ 6 from by omega, show (3 : Nat) ≤ 6 from by omega, if_true, Res.bind_ok, hp 0 (by omega),
      hp 3 (by omega)]

/-- The most data that fits, and an address that is rejected. -/
example : (t.setOutboundData (VS := Empty) uartHeader logController opcode.LE_SET_ADVERTISING_DATA
      (List.replicate 31 7) []).1 = .ok () ∧
    t.validateRandomAddress (E := Empty) (VS := Empty) ⟨⟨[0, 0, 0, 0, 0, 0xC0], rfl⟩⟩ =
      .err (.badRandomAddress ⟨⟨[0, 0, 0, 0, 0, 0xC0], rfl⟩⟩) := by
  rw [(C94_commands t _ _ _ _ _ ⟨⟨[0, 0, 0, 0, 0, 0xC0], rfl⟩⟩).1,
    (C94_commands (E := Empty) (VS := Empty) t uartHeader logController opcode.RESET [] [] _).2]
  decide +kernel

end Bt
