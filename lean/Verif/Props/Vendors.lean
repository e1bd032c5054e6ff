import Verif.Lemmas.Vendors
import Verif.Props.Events
import Verif.Spec.Demo

/-! # C67, C68: what a vendor can change -/

namespace Bt

open Spec

variable (c : Cfg) (V W : Vendor)

/-- **C67.** Decoding looks at nothing of a vendor but what its three functions return: if those of `W` return
what those of `V` return up to names, then so does decoding, for every packet. -/
theorem C67_renaming (ρ : Renaming V W) (packet : List UInt8) :
    (∀ e, Event.new c V packet = .ok e →
      Event.new c W packet = .ok (mapEvent ρ.status ρ.ret ρ.event e)) ∧
    (∀ e, Event.new c V packet = .err e → Event.new c W packet = .err (mapError ρ.error e)) ∧
    (Event.new c V packet = .panic → Event.new c W packet = .panic) := by
  have hK (e : EvError V.VErr) : errK true (fun x => some (ρ.error x)) e = some (mapError ρ.error e) := by
    cases e <;> rfl
  have hF {α β : Type} {x : Res (EvError V.VErr) α} {y : Res (EvError W.VErr) β} {f : α → β}
      (h1 : ∀ a, x = .ok a → y = .ok (f a)) (h2 : ∀ e, x = .err e → y = .err (mapError ρ.error e))
      (h3 : x = .panic → y = .panic) : Follows (errK true (fun x => some (ρ.error x))) f x y := by
    refine ⟨h1, fun e e' h h' => ?_, h3⟩
    rw [hK] at h'
    cases h'
    exact h2 e h
  have h := follows_event (V := V) (W := W) (keep := true) (g := fun x => some (ρ.error x)) (f := ρ.status)
    (r := ρ.ret) (k := ρ.event)
    ⟨ρ.status_ok, fun _ => ρ.status_err, ρ.status_panic,
      fun ps => hF (ρ.ret_ok ps) (ρ.ret_err ps) (ρ.ret_panic ps),
      fun ps => hF (ρ.event_ok ps) (ρ.event_err ps) (ρ.event_panic ps)⟩ c packet
  exact ⟨h.1, fun e he => h.2.1 e _ he (hK e), h.2.2⟩

/-- The vendor of the examples with its statuses as natural numbers and its events as their lengths. -/
def countingVendor : Vendor where
  VErr := String
  VStatus := Nat
  VRet := Nat
  VEvent := Nat
  statusTryFrom b := if 0x80 ≤ b then .ok b.toNat else .err b
  statusInto n := UInt8.ofNat n
  eventNew ps := if ps.isEmpty then .err (.vendor "empty") else .ok ps.length
  retNew ps := .ok ps.length

/-- It renames the vendor of the examples. -/
def countingRenaming : Renaming demoVendor countingVendor where
  status b := UInt8.toNat b
  ret ps := List.length (α := UInt8) ps
  event ps := List.length (α := UInt8) ps
  error _ := "empty"
  status_ok b s h := by
    simp only [demoVendor] at h
    simp only [countingVendor]
    split at h
    · rename_i hb; cases h; rw [if_pos hb]
    · cases h
  status_err b w h := by
    simp only [demoVendor] at h
    simp only [countingVendor]
    split at h
    · cases h
    · rename_i hb; cases h; rw [if_neg hb]
  status_panic b h := by
    simp only [demoVendor] at h
    split at h <;> cases h
  ret_ok ps r h := by cases h; rfl
  ret_err ps r h := by cases h
  ret_panic ps h := by cases h
  event_ok ps r h := by
    simp only [demoVendor] at h
    simp only [countingVendor]
    split at h
    · cases h
    · rename_i hb; cases h; rw [if_neg hb]
  event_err ps r h := by
    simp only [demoVendor] at h
    simp only [countingVendor]
    split at h
    · rename_i hb; cases h; rw [if_pos hb]; rfl
    · cases h
  event_panic ps h := by
    simp only [demoVendor] at h
    split at h <;> cases h

/-- A disconnection with a status of the vendor, and an empty vendor event. -/
example : Event.new ⟨false, false⟩ countingVendor [0x05, 4, 0x85, 0x01, 0x02, 0x13] =
      .ok (.disconnectionComplete ⟨.vendor (133 : Nat), ⟨0x0201⟩, .remoteTerminationByUser⟩) ∧
    Event.new ⟨false, false⟩ countingVendor [0xFF, 0] = .err (.vendor "empty") :=
  ⟨(C67_renaming _ _ _ countingRenaming [0x05, 4, 0x85, 0x01, 0x02, 0x13]).1
      (.disconnectionComplete ⟨.vendor (0x85 : UInt8), ⟨0x0201⟩, .remoteTerminationByUser⟩) rfl,
    (C67_renaming _ _ _ countingRenaming [0xFF, 0]).2.1 (.vendor ()) rfl⟩

/-- **C68.** What needs nothing of a vendor is the same with every vendor: a packet means the plain event `x`
with `V` exactly if it means `x` without a vendor, errors in which a vendor has no say are the same errors,
and panics are panics. -/
theorem C68_no_vendor (packet : List UInt8) :
    (∀ x, Event.new c V packet = .ok (plainEvent V x) ↔ Event.new c noVendor packet = .ok x) ∧
    (∀ e e', Event.new c noVendor packet = .err e → plainError V e = some e' →
      Event.new c V packet = .err e') ∧
    (Event.new c noVendor packet = .panic → Event.new c V packet = .panic) := by
  have hK (e : EvError Unit) : errK false (fun _ => (none : Option V.VErr)) e = plainError V e := by
    cases e <;> rfl
  have h := follows_event (V := noVendor) (W := V) (keep := false) (g := fun _ => none) (f := Empty.elim)
    (r := Empty.elim) (k := Empty.elim)
    ⟨fun _ _ h => by (cases h), fun h => by (cases h), fun _ h => by (cases h), fun _ => .free rfl,
      fun _ => .free rfl⟩ c packet
  refine ⟨fun x => ⟨fun hx => ?_, h.1 x⟩, fun e e' he he' => h.2.1 e e' he ((hK e).trans he'), h.2.2⟩
  rw [C09_sound_and_complete] at hx ⊢
  obtain ⟨code, ps, h1, h2, h3⟩ := hx
  exact ⟨code, ps, h1, h2, says_unplain h3 x rfl⟩

/-- A disconnection, a bad link type and a cut-off reply, with any vendor. -/
example : Event.new ⟨false, false⟩ V [0x05, 4, 0x00, 0x01, 0x02, 0x13] =
      .ok (.disconnectionComplete ⟨.success, ⟨0x0201⟩, .remoteTerminationByUser⟩) ∧
    Event.new ⟨false, false⟩ V [0x1A, 1, 7] = .err (.badLinkType 7) ∧
    Event.new ⟨false, false⟩ V [0x0E, 3, 1, 0x03, 0x0C] = .panic :=
  ⟨((C68_no_vendor _ V [0x05, 4, 0x00, 0x01, 0x02, 0x13]).1
      (.disconnectionComplete ⟨.success, ⟨0x0201⟩, .remoteTerminationByUser⟩)).mpr rfl,
    (C68_no_vendor _ V [0x1A, 1, 7]).2.1 (.badLinkType 7) _ rfl rfl,
    (C68_no_vendor _ V [0x0E, 3, 1, 0x03, 0x0C]).2.2 rfl⟩

end Bt
