import Verif.Spec.Wanted
import Verif.Props.Masks
import Verif.Props.Settings

/-! # C89: the controller sends the events that were asked for -/

namespace Bt

open Spec

variable {σ E VS : Type} (c : Cfg) (V : Vendor)

theorem names_flag_iff {c : Cfg} {t : List FlagDecl} {nm : String} {k : Nat}
    (hu : ∀ d ∈ t, d.name = nm → d.mask.toNat = 2 ^ k) (ho : Offers c t nm k) (m : UInt64) :
    NamesFlag c t nm m ↔ m.toNat.testBit k = true := by
  constructor
  · rintro ⟨d, hd, -, hn, hm⟩
    exact (u64_and_pow (hu d hd hn)).mp hm
  · intro h
    obtain ⟨d, hd, hg, hn, hk⟩ := ho
    exact ⟨d, hd, hg, hn, (u64_and_pow hk).mpr h⟩

theorem inMask_iff {c : Cfg} {t : List FlagDecl} {nm : String} {k : Nat}
    (hu : ∀ d ∈ t, d.name = nm → d.mask.toNat = 2 ^ k) (ho : Offers c t nm k) {names : List String} {dflt : Nat}
    (hd : nm ∈ names ↔ dflt.testBit k = true) {m : Option UInt64} {n : Option Nat}
    (h : Both (fun m n => n = m.toNat) m n) : InMask c t names nm m ↔ (n.getD dflt).testBit k = true := by
  cases m with
  | none =>
    cases n with
    | none => exact hd
    | some n => cases h
  | some m =>
    cases n with
    | none => cases h
    | some n =>
      cases h
      exact names_flag_iff hu ho m

theorem agree_start : Agree {} {} :=
  ⟨trivial, trivial, trivial, trivial, rfl, rfl, rfl, trivial, rfl,
    (fun e => ⟨(fun h => by cases h), (fun ⟨_, h, _⟩ => by cases h)⟩), trivial⟩

/-- The two masks for an event that can be masked. -/
theorem mask_agrees {a : Asked} {t : Told} (h : Agree a t) (code : UInt8) (ps : List UInt8) (e : V.Ev) (nm : String)
    (he : Event.new c V (frame code ps) = .ok e) (hn : eventFlagName e = some nm) :
    code ∉ [0x0E, 0x0F, 0x13, 0xFF] ∧
    (InMask c eventFlags defaultEvents nm a.eventMask ↔
      (t.eventMask.getD defaultEventMask).testBit (code.toNat - 1) = true) := by
  obtain ⟨code', ps', hf, -, hs⟩ := (C09_sound_and_complete c V _ _).mp he
  obtain ⟨rfl, -⟩ := frame_inj hf
  cases hs <;> simp only [eventFlagName, Option.some.injEq, reduceCtorEq] at hn <;> subst hn <;>
    exact ⟨by decide, inMask_iff (by decide +kernel) ((C55_event_flags _ _ _).mpr ⟨by decide +kernel, by decide⟩)
      (by decide) h.eventMask⟩

theorem le_mask_agrees {a : Asked} {t : Told} (h : Agree a t) (code : UInt8) (ps : List UInt8) (e : V.Ev)
    (nm : String) (he : Event.new c V (frame code ps) = .ok e) (hn : leEventFlagName e = some nm)
    (hv : LeEventInVersion c e) :
    InMask c leEventFlags defaultLeEvents nm a.leEventMask ↔
      (t.leEventMask.getD defaultLeEventMask).testBit (byteAt ps 0 - 1) = true := by
  obtain ⟨-, sub, rest, rfl, -, ho⟩ := le_event_mask c V code ps e nm he hn hv
  obtain ⟨code', ps', hf, -, hs⟩ := (C09_sound_and_complete c V _ _).mp he
  obtain ⟨rfl, hps⟩ := frame_inj hf
  cases hs <;> simp only [leEventFlagName, Option.some.injEq, reduceCtorEq] at hn <;> subst hn <;>
    (obtain ⟨rfl, -⟩ := List.cons.inj hps
     exact inMask_iff (by decide +kernel) ho (by decide) h.leEventMask)

/-- **C89.** Whenever the controller is set as the application asked, it sends an event that the crate can
decode exactly if the application asked for it. LE events of later versions than the crate is compiled for are
left out: there is no flag to ask for them (C56). -/
theorem C89_asked_for {a : Asked} {t : Told} (h : Agree a t) (code : UInt8) (ps : List UInt8) (e : V.Ev)
    (he : Event.new c V (frame code ps) = .ok e) (hv : LeEventInVersion c e) :
    t.Passes code ps ↔ a.Wants c e := by
  unfold Told.Passes Asked.Wants
  cases hn : eventFlagName e with
  | none =>
    have hl : leEventFlagName e = none := by cases e <;> first | rfl | cases hn
    have hc : code ∈ ([0x0E, 0x0F, 0x13, 0xFF] : List UInt8) := by
      obtain ⟨code', ps', hf, -, hs⟩ := (C09_sound_and_complete c V _ _).mp he
      obtain ⟨rfl, -⟩ := frame_inj hf
      cases hs <;> first | decide | cases hn
    rw [hl]
    exact iff_of_true (.inl hc) ⟨(fun _ h => by cases h), (fun _ h => by cases h)⟩
  | some nm =>
    obtain ⟨h1, h2⟩ := mask_agrees c V h code ps e nm he hn
    cases hl : leEventFlagName e with
    | none =>
      have hc : code ≠ 0x3E := by
        obtain ⟨code', ps', hf, -, hs⟩ := (C09_sound_and_complete c V _ _).mp he
        obtain ⟨rfl, -⟩ := frame_inj hf
        cases hs <;> first | decide | cases hl
      constructor
      · rintro (h3 | ⟨h3, -⟩)
        · exact absurd h3 h1
        · refine ⟨?_, fun _ h => by cases h⟩
          rintro _ ⟨⟩
          exact h2.mpr h3
      · rintro ⟨h3, -⟩
        exact .inr ⟨h2.mp (h3 nm rfl), fun h => absurd h hc⟩
    | some nm' =>
      have h4 := le_mask_agrees c V h code ps e nm' he hl hv
      have hc := (le_event_mask c V code ps e nm' he hl hv).1
      constructor
      · rintro (h3 | ⟨h3, h5⟩)
        · exact absurd h3 h1
        · constructor
          · rintro _ ⟨⟩; exact h2.mpr h3
          · rintro _ ⟨⟩; exact h4.mpr (h5 hc)
      · rintro ⟨h3, h5⟩
        exact .inr ⟨h2.mp (h3 nm rfl), fun _ => h4.mp (h5 nm' rfl)⟩

/-- Advertising reports were asked for, encryption changes were not. -/
example :
    let a : Asked := { eventMask := some 0x2000000000000010, leEventMask := some 0x02 }
    let t : Told := { eventMask := some 0x2000000000000010, leEventMask := some 0x02 }
    Agree a t ∧ t.Passes 0x3E [0x02, 0] ∧ t.Passes 0x05 [0x00, 0x01, 0x00, 0x13] ∧
      ¬ t.Passes 0x08 [0x00, 0x01, 0x00, 0x01] ∧ ¬ t.Passes 0x3E (0x03 :: List.replicate 9 0) := by
  intro a t
  refine ⟨⟨rfl, rfl, trivial, trivial, rfl, rfl, rfl, trivial, rfl, fun e => ?_, trivial⟩, ?_⟩
  · exact ⟨(fun h => by cases h), (fun ⟨_, h, _⟩ => by cases h)⟩
  · unfold Told.Passes
    decide

/-- **C89.** In every session over a UART that starts with the defaults (as after a reset), whichever of the
commands the controller carries out, it then sends an event that the crate can decode exactly if the application
asked for it in the calls that returned Ok and were carried out. -/
theorem C89_uart (k : Controller σ E) (sent : σ → List UInt8) (hk : WritesAtomically k sent)
    (vinto : VS → UInt8) (cmds : List (Command VS)) (hc : ∀ cmd ∈ cmds, cmd.Constructible c) (s : σ)
    (verdicts : List Bool) :
    let run := runAll (cmds.map (·.exec uartHeader k vinto)) s
    ∃ new packets, sent run.2 = sent s ++ new ∧ parseCommands new = some packets ∧
      ∀ code ps (e : V.Ev), Event.new c V (frame code ps) = .ok e → LeEventInVersion c e →
        (((favoured verdicts packets).foldl (fun t p => t.hear p.1 p.2) ({} : Told)).Passes code ps ↔
          ((favoured verdicts (returnedOk cmds run.1)).foldl Asked.say ({} : Asked)).Wants c e) := by
  intro run
  obtain ⟨new, packets, h1, h2, h3⟩ := C87_uart c k sent hk vinto cmds hc s verdicts {} {} agree_start
  exact ⟨new, packets, h1, h2, fun code ps e he hv => C89_asked_for c V h3 code ps e he hv⟩

/-- The masks in the bytes of a session in which the second Set Event Mask is refused. -/
example :
    let cmds : List (Command demoVendor.VStatus) := [.setEventMask 0x10, .leSetEventMask 2, .setEventMask 0]
    let run := runAll (cmds.map (·.exec uartHeader wireController id)) []
    (parseCommands run.2).map (fun ps =>
      let t : Told := (favoured [true, true, false] ps).foldl (fun t p => t.hear p.1 p.2) {}
      (t.eventMask, t.leEventMask)) = some (some 0x10, some 2) := by decide +kernel

/-- **C89.** The same for both ways of connecting a controller, for controllers that take packets. -/
theorem C89_packets (l : Link) (k : Controller σ E) (got : σ → List (List UInt8 × List UInt8))
    (hk : TakesPackets k got) (vinto : VS → UInt8) (cmds : List (Command VS))
    (hc : ∀ cmd ∈ cmds, cmd.Constructible c) (s : σ) (verdicts : List Bool) :
    let run := runAll (cmds.map (·.exec (linkHeader l) k vinto)) s
    ∃ new, got run.2 = got s ++ new ∧
      ∀ code ps (e : V.Ev), Event.new c V (frame code ps) = .ok e → LeEventInVersion c e →
        (((favoured verdicts new).foldl (fun t p => t.hear (opcodeIn l p.1) p.2) ({} : Told)).Passes code ps ↔
          ((favoured verdicts (returnedOk cmds run.1)).foldl Asked.say ({} : Asked)).Wants c e) := by
  intro run
  obtain ⟨new, h1, h3⟩ := C87_packets c l k got hk vinto cmds hc s verdicts {} {} agree_start
  exact ⟨new, h1, fun code ps e he hv => C89_asked_for c V h3 code ps e he hv⟩

/-- Only disconnections are asked for; the controller takes the command and sends nothing else. -/
example :
    let cmds : List (Command demoVendor.VStatus) := [.setEventMask 0x10]
    let run := runAll (cmds.map (·.exec (linkHeader .uart) logController id)) []
    let told : Told := (favoured [true] run.2).foldl (fun t p => t.hear (opcodeIn .uart p.1) p.2) {}
    told.eventMask = some 0x10 ∧ told.leEventMask = none := by decide +kernel

end Bt
