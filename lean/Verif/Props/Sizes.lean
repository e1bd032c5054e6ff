import Verif.Props.Reports
import Verif.Props.Commands
import Verif.Spec.CommandStream
import Verif.Spec.Demo

/-! # C99: buffers of fixed size suffice -/

namespace Bt

open Spec

variable (c : Cfg) (V : Vendor) {ε : Type}

theorem le_sum_of_mem {xs : List Nat} {n : Nat} (h : n ∈ xs) : n ≤ xs.sum := by
  induction xs with
  | nil => cases h
  | cons x xs ih =>
    rw [List.sum_cons]
    cases h with
    | head => omega
    | tail _ h => have := ih h; omega

theorem advBytes_size (a : LeAdvertisement) : (advBytes a).length = a.data.length + 10 := by
  have h : (addrTypeBytes a.address).length = 7 := by
    cases a.address with
    | pub x => simp [addrTypeBytes, x.val.len]
    | random x => simp [addrTypeBytes, x.val.len]
  simp only [advBytes, List.length_cons, List.length_append, h, List.length_nil]
  omega

theorem advsBytes_size (as : List LeAdvertisement) :
    (advsBytes as).length = (as.map fun a => a.data.length).sum + 10 * as.length := by
  induction as with
  | nil => rfl
  | cons a as ih =>
    have : (advsBytes (a :: as)).length = (advBytes a).length + (advsBytes as).length := by
      simp [advsBytes]
    rw [this, ih, advBytes_size]
    simp only [List.map_cons, List.sum_cons, List.length_cons]
    omega

/-- **C99.** The numbers of pairs that a Number Of Completed Packets event can have are those up to 63. -/
theorem C99_pairs (n : Nat) :
    (∃ packet e pairs, Event.new c V packet = .ok (.numberOfCompletedPackets e) ∧ e.iter (ε := ε) = .ok pairs ∧
      pairs.length = n) ↔ n ≤ 63 := by
  constructor
  · rintro ⟨packet, e, pairs, h, hi, rfl⟩
    obtain ⟨m, xs, -, -, hx, hi'⟩ := C14_pairs (ε := ε) c V packet e h
    rw [hi'] at hi
    cases hi
    rw [List.length_map]
    exact hx
  · intro h
    obtain ⟨e, h1, h2⟩ := C14_every_list c V (ε := ε) (List.replicate n (0x0201, 0x0403)) (by simp; exact h)
    exact ⟨_, e, _, h1, h2, by simp⟩

/-- **C99.** The numbers of data bytes that the advertisements of an LE Advertising Report can have, one after the
other, are those of which the sum, with ten more for each advertisement, is at most 253. -/
theorem C99_reports (sizes : List Nat) :
    (∃ packet r as, Event.new c V packet = .ok (.leAdvertisingReport r) ∧ r.iter (ε := ε) = .ok as ∧
      as.map (fun a => a.data.length) = sizes) ↔ sizes.sum + 10 * sizes.length ≤ 253 := by
  constructor
  · rintro ⟨packet, r, as, h, hi, rfl⟩
    obtain ⟨code, ps, rfl, hl, hs⟩ := (C09_sound_and_complete c V _ _).mp h
    cases hs with
    | leAdvertisingReport ha hz =>
      rw [report_iter _ ha _ hz] at hi
      cases hi
      have := advsBytes_size as
      simp only [List.length_cons] at hl
      rw [List.length_map]
      omega
  · intro h
    have hs : ∀ (sizes : List Nat), (sizes.map fun n => (⟨.advertisement, .pub ⟨Arr.zero 6⟩, List.replicate n 0, none⟩ :
        LeAdvertisement)).map (fun a => a.data.length) = sizes := by
      intro sizes
      rw [List.map_map]
      conv => rhs; rw [← List.map_id sizes]
      exact List.map_congr_left fun n _ => by simp
    obtain ⟨r, h1, h2⟩ := C16_round_trip c V (ε := ε) 0
      (sizes.map fun n => ⟨.advertisement, .pub ⟨Arr.zero 6⟩, List.replicate n 0, none⟩)
      (by rw [advsBytes_size, hs, List.length_map]; exact h)
      (by intro a ha; obtain ⟨n, -, rfl⟩ := List.mem_map.1 ha; simp)
    exact ⟨_, r, _, h1, h2, hs sizes⟩

/-- **C99.** So there are at most 25 advertisements, and an advertisement has at most 243 bytes of data; both
numbers occur. -/
theorem C99_reports_bounds :
    (∀ packet r as, Event.new c V packet = .ok (.leAdvertisingReport r) → r.iter (ε := ε) = .ok as →
      as.length ≤ 25 ∧ ∀ a ∈ as, a.data.length ≤ 243) ∧
    (∃ packet r as, Event.new c V packet = .ok (.leAdvertisingReport r) ∧ r.iter (ε := ε) = .ok as ∧
      as.length = 25) ∧
    (∃ packet r a, Event.new c V packet = .ok (.leAdvertisingReport r) ∧ r.iter (ε := ε) = .ok [a] ∧
      a.data.length = 243) := by
  refine ⟨fun packet r as h hi => ?_, ?_, ?_⟩
  · have := (C99_reports c V (ε := ε) (as.map fun a => a.data.length)).mp ⟨packet, r, as, h, hi, rfl⟩
    rw [List.length_map] at this
    refine ⟨by omega, fun a ha => ?_⟩
    have hm : a.data.length ∈ as.map (fun a => a.data.length) := List.mem_map.2 ⟨a, ha, rfl⟩
    have hle : a.data.length ≤ (as.map fun a => a.data.length).sum := le_sum_of_mem hm
    have hpos : 0 < as.length := List.length_pos_of_mem ha
    omega
  · obtain ⟨packet, r, as, h, hi, hs⟩ := (C99_reports c V (ε := ε) (List.replicate 25 0)).mpr (by decide)
    refine ⟨packet, r, as, h, hi, ?_⟩
    have := congrArg List.length hs
    simpa using this
  · obtain ⟨packet, r, as, h, hi, hs⟩ := (C99_reports c V (ε := ε) [243]).mpr (by decide)
    obtain ⟨a, rfl⟩ := List.length_eq_one_iff.1 (by simpa using congrArg List.length hs : as.length = 1)
    exact ⟨packet, r, a, h, hi, by simpa using hs⟩

/-- The most bytes of a command, header and parameters. -/
def mostWritten : Link → Nat
  | .uart => 36
  | .cmdLink => 35

/-- **C99.** A command writes at most 36 bytes to a UART and 35 bytes to a command link, and LE Encrypt writes as
many. -/
theorem C99_commands {σ E VS : Type} (l : Link) (k : Controller σ E) (vinto : VS → UInt8) (s : σ) :
    (∀ cmd : Command VS, cmd.Constructible c → ∀ h p,
      CtlOp.write h p ∈ (cmd.exec (linkHeader l) (recording k) vinto (s, [])).2.2 →
        h.length + p.length ≤ mostWritten l) ∧
    ∀ e, ∃ h p, ((Command.leEncrypt e).exec (linkHeader l) (recording k) vinto (s, [])).2.2 = [.write h p] ∧
      h.length + p.length = mostWritten l := by
  constructor
  · intro cmd hc h p hm
    cases hr : cmdReject (E := E) cmd with
    | some e =>
      rw [C40_rejected c l (recording k) vinto cmd hc e hr] at hm
      cases hm
    | none =>
      rw [C39_trace c l k vinto cmd hc hr s []] at hm
      simp only [List.nil_append, List.mem_singleton, CtlOp.write.injEq] at hm
      obtain ⟨rfl, rfl⟩ := hm
      have := cmdParams_length cmd hr
      have hh (n : Nat) : (headerBytes l (cmdOpcode cmd) n).length + 32 = mostWritten l := by cases l <;> rfl
      have := hh (cmdParams cmd).length
      omega
  · intro e
    refine ⟨_, _, C39_trace c l k vinto (.leEncrypt e) trivial rfl s [], ?_⟩
    have : (cmdParams (.leEncrypt e : Command VS)).length = 32 := by
      simp [cmdParams, e.key.len, e.plaintextData.len]
    rw [this]
    cases l <;> rfl

/-! ## Examples -/

/-- Three advertisements with 31, 0 and 200 bytes of data are too many for one report; with 192 they are not. -/
example : ¬ (∃ packet r as, Event.new c V packet = .ok (.leAdvertisingReport r) ∧ r.iter (ε := ε) = .ok as ∧
      as.map (fun a => a.data.length) = [31, 0, 200]) ∧
    (∃ packet r as, Event.new c V packet = .ok (.leAdvertisingReport r) ∧ r.iter (ε := ε) = .ok as ∧
      as.map (fun a => a.data.length) = [31, 0, 192]) :=
  ⟨fun h => absurd ((C99_reports c V _).mp h) (by decide), (C99_reports c V _).mpr (by decide)⟩

/-- An event with 63 pairs exists, and none with 64. -/
example : (∃ packet e pairs, Event.new c V packet = .ok (.numberOfCompletedPackets e) ∧ e.iter (ε := ε) = .ok pairs ∧
      pairs.length = 63) ∧
    ¬ (∃ packet e pairs, Event.new c V packet = .ok (.numberOfCompletedPackets e) ∧ e.iter (ε := ε) = .ok pairs ∧
      pairs.length = 64) :=
  ⟨(C99_pairs c V 63).mpr (by decide), fun h => absurd ((C99_pairs c V 64).mp h) (by decide)⟩

/-- The 36 bytes of LE Encrypt. -/
example : ((Command.leEncrypt (VS := Empty) ⟨Arr.zero 16, Arr.zero 16⟩).exec uartHeader (recording logController)
    Empty.elim ([], [])).2.2 = [.write [0x01, 0x17, 0x20, 32] (List.replicate 32 0)] := rfl

end Bt
