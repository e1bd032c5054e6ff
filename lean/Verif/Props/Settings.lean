import Verif.Lemmas.Settings
import Verif.Spec.Demo

/-! # C87: the controller is set as the application asked -/

namespace Bt
open Spec

variable {σ E VS : Type}

theorem favoured_map {α β : Type} (f : α → β) (vs : List Bool) (xs : List α) :
    favoured vs (xs.map f) = (favoured vs xs).map f := by
  unfold favoured
  induction xs generalizing vs with
  | nil => rfl
  | cons x xs ih =>
    cases vs with
    | nil => rfl
    | cons v vs =>
      simp only [List.map_cons, List.zip_cons_cons, List.filter_cons]
      cases v <;> simp [ih]

theorem favoured_mem {α : Type} {vs : List Bool} {xs : List α} {x : α} (h : x ∈ favoured vs xs) : x ∈ xs := by
  unfold favoured at h
  obtain ⟨p, hp, rfl⟩ := List.mem_map.mp h
  exact (List.of_mem_zip (List.mem_filter.mp hp).1).1

theorem agree_fold {c : Cfg} (cmds : List (Command VS)) (hc : ∀ cmd ∈ cmds, cmd.Constructible c)
    (hr : ∀ cmd ∈ cmds, cmdReject (E := E) cmd = none) {a : Asked} {t : Told} (h : Agree a t) :
    Agree (cmds.foldl Asked.say a)
      ((cmds.map (fun cmd => (cmdOpcode cmd, cmdParams cmd))).foldl (fun t p => t.hear p.1 p.2) t) := by
  induction cmds generalizing a t with
  | nil => exact h
  | cons cmd cmds ih =>
    exact ih (fun x hx => hc x (by simp [hx])) (fun x hx => hr x (by simp [hx]))
      (agree_step (E := E) h cmd (hc cmd (by simp)) (hr cmd (by simp)))

theorem returned_ok (c : Cfg) (l : Link) (k : Controller σ E) (vinto : VS → UInt8) (cmds : List (Command VS))
    (hc : ∀ cmd ∈ cmds, cmd.Constructible c) (s : σ) :
    ∀ cmd ∈ returnedOk cmds (runAll (cmds.map (·.exec (linkHeader l) k vinto)) s).1,
      cmd.Constructible c ∧ cmdReject (E := E) cmd = none := by
  induction cmds generalizing s with
  | nil => intro cmd h; cases h
  | cons x cmds ih =>
    intro cmd h
    have ih' := ih (fun y hy => hc y (by simp [hy])) (x.exec (linkHeader l) k vinto s).2 cmd
    simp only [returnedOk, List.map_cons, runAll, List.zip_cons_cons, List.filter_cons] at h ih'
    cases ho : (x.exec (linkHeader l) k vinto s).1 with
    | ok u =>
      rw [ho] at h
      rcases List.mem_cons.mp h with rfl | h
      · refine ⟨hc _ (by simp), ?_⟩
        cases hr : cmdReject (E := E) cmd with
        | none => rfl
        | some e =>
          rw [C40_rejected c l k vinto cmd (hc _ (by simp)) e hr s] at ho
          cases ho
      · exact ih' h
    | err e => rw [ho] at h; exact ih' h
    | panic => rw [ho] at h; exact ih' h

/-- **C87.** Over a UART, for every sequence of calls, every all-or-nothing controller and every choice of the
commands that it carries out (`verdicts`): what it has been set to by the bytes it received is what the
application asked for in the calls that returned Ok and were carried out. -/
theorem C87_uart (c : Cfg) (k : Controller σ E) (sent : σ → List UInt8) (hk : WritesAtomically k sent)
    (vinto : VS → UInt8) (cmds : List (Command VS)) (hc : ∀ cmd ∈ cmds, cmd.Constructible c) (s : σ)
    (verdicts : List Bool) (a : Asked) (t : Told) (h : Agree a t) :
    let run := runAll (cmds.map (·.exec uartHeader k vinto)) s
    ∃ new packets, sent run.2 = sent s ++ new ∧ parseCommands new = some packets ∧
      Agree ((favoured verdicts (returnedOk cmds run.1)).foldl Asked.say a)
        ((favoured verdicts packets).foldl (fun t p => t.hear p.1 p.2) t) := by
  intro run
  obtain ⟨new, h1, h2⟩ := C42_stream_parses c k sent hk vinto cmds hc s
  refine ⟨new, _, h1, h2, ?_⟩
  have he : ((cmds.zip run.1).filter (fun p => p.2 matches .ok ())).map
      (fun p => (cmdOpcode p.1, cmdParams p.1)) =
      (returnedOk cmds run.1).map (fun cmd => (cmdOpcode cmd, cmdParams cmd)) := by
    rw [returnedOk, List.map_map]
    refine congrArg (List.map _) (List.filter_congr fun p _ => ?_)
    obtain ⟨x, r⟩ := p
    cases r <;> rfl
  have hm := returned_ok c .uart k vinto cmds hc s
  change Agree _ ((favoured verdicts (((cmds.zip run.1).filter (fun p => p.2 matches .ok ())).map
      (fun p => (cmdOpcode p.1, cmdParams p.1)))).foldl _ t)
  rw [he, favoured_map]
  exact agree_fold (E := E) _ (fun x hx => (hm x (favoured_mem hx)).1) (fun x hx => (hm x (favoured_mem hx)).2) h

/-- A session: advertising data, data that are too long, an entry of the white list, and advertising turned on,
which the controller refuses. -/
def settingsSession : List (Command demoVendor.VStatus) :=
  [.leSetAdvertisingData [2, 1, 6], .leSetAdvertisingData (List.replicate 32 0),
    .leAddDeviceToWhiteList (.pub ⟨⟨[1, 2, 3, 4, 5, 6], rfl⟩⟩), .leSetAdvertiseEnable true]

/-- The bytes of the session are the packets of three commands. -/
example :
    let run := runAll (settingsSession.map (·.exec uartHeader wireController id)) []
    (parseCommands run.2).map (·.map (·.1)) = some [0x2008, 0x2011, 0x200A] ∧
      (returnedOk settingsSession run.1).length = 3 := by decide +kernel

theorem opcode_in (l : Link) (op : UInt16) (n : Nat) : opcodeIn l (headerBytes l op n) = op := by
  have h : UInt16.ofNat (leVal (le16 op)) = op := by rw [leVal_le16]; simp
  have hl : (le16 op).length = 2 := by simp
  cases l with
  | uart =>
    change UInt16.ofNat (leVal ((le16 op ++ [UInt8.ofNat n]).take 2)) = op
    rw [List.take_left' hl, h]
  | cmdLink =>
    change UInt16.ofNat (leVal ((le16 op ++ [UInt8.ofNat n]).take 2)) = op
    rw [List.take_left' hl, h]

theorem packets_taken (c : Cfg) (l : Link) (k : Controller σ E) (got : σ → List (List UInt8 × List UInt8))
    (hk : TakesPackets k got) (vinto : VS → UInt8) (cmds : List (Command VS))
    (hc : ∀ cmd ∈ cmds, cmd.Constructible c) (s : σ) :
    let run := runAll (cmds.map (·.exec (linkHeader l) k vinto)) s
    got run.2 = got s ++ (returnedOk cmds run.1).map
      (fun cmd => (headerBytes l (cmdOpcode cmd) (cmdParams cmd).length, cmdParams cmd)) := by
  induction cmds generalizing s with
  | nil => simp [runAll, returnedOk]
  | cons cmd cmds ih =>
    have ih' := ih (fun x hx => hc x (by simp [hx])) (cmd.exec (linkHeader l) k vinto s).2
    simp only [List.map_cons, runAll] at ih' ⊢
    rw [ih']
    clear ih' ih
    simp only [returnedOk, List.zip_cons_cons, List.filter_cons]
    have hcc := hc cmd (by simp)
    cases hr : cmdReject (E := E) cmd with
    | some e =>
      have he := C40_rejected c l k vinto cmd hcc e hr s
      rw [show (cmd.exec (linkHeader l) k vinto s).1 = .err (.other e) by rw [he],
        show (cmd.exec (linkHeader l) k vinto s).2 = s by rw [he]]
      simp
    | none =>
      have he := (C39_one_framed_write c l k vinto cmd hcc hr s).1
      rw [he]
      generalize hw : k.write (headerBytes l (cmdOpcode cmd) (cmdParams cmd).length) (cmdParams cmd) s = w
      have h1 := hk.ok (headerBytes l (cmdOpcode cmd) (cmdParams cmd).length) (cmdParams cmd) s
      have h2 := hk.err (headerBytes l (cmdOpcode cmd) (cmdParams cmd).length) (cmdParams cmd) s
      have h3 := hk.noPanic (headerBytes l (cmdOpcode cmd) (cmdParams cmd).length) (cmdParams cmd) s
      rw [hw] at h1 h2 h3
      obtain ⟨r, s'⟩ := w
      cases r with
      | ok u => rw [h1 rfl]; simp [Res.mapErr]
      | err e => rw [h2 e rfl]; simp [Res.mapErr]
      | panic => exact absurd rfl h3

/-- **C87.** The same for both ways of connecting a controller, for controllers that take packets. -/
theorem C87_packets (c : Cfg) (l : Link) (k : Controller σ E) (got : σ → List (List UInt8 × List UInt8))
    (hk : TakesPackets k got) (vinto : VS → UInt8) (cmds : List (Command VS))
    (hc : ∀ cmd ∈ cmds, cmd.Constructible c) (s : σ) (verdicts : List Bool) (a : Asked) (t : Told)
    (h : Agree a t) :
    let run := runAll (cmds.map (·.exec (linkHeader l) k vinto)) s
    ∃ new, got run.2 = got s ++ new ∧
      Agree ((favoured verdicts (returnedOk cmds run.1)).foldl Asked.say a)
        ((favoured verdicts new).foldl (fun t p => t.hear (opcodeIn l p.1) p.2) t) := by
  intro run
  refine ⟨_, packets_taken c l k got hk vinto cmds hc s, ?_⟩
  have hm := returned_ok c l k vinto cmds hc s
  rw [favoured_map]
  have key := agree_fold (E := E) (favoured verdicts (returnedOk cmds run.1))
    (fun x hx => (hm x (favoured_mem hx)).1) (fun x hx => (hm x (favoured_mem hx)).2) h
  rw [List.foldl_map] at key ⊢
  simp only [opcode_in]
  exact key

example : TakesPackets logController id :=
  ⟨fun _ _ _ _ => rfl, fun _ _ _ _ h => (by cases h), fun _ _ _ h => (by cases h)⟩

example : ∀ cmd ∈ settingsSession, Command.Constructible ⟨false, false⟩ cmd := by
  intro cmd h
  simp only [settingsSession, List.mem_cons, List.not_mem_nil, or_false] at h
  rcases h with rfl | rfl | rfl | rfl <;> trivial

example :
    let run := runAll (settingsSession.map (·.exec (linkHeader .uart) logController id)) []
    let told : Told := (favoured [true, true, false] run.2).foldl (fun t p => t.hear (opcodeIn .uart p.1) p.2) {}
    let asked : Asked := (favoured [true, true, false] (returnedOk settingsSession run.1)).foldl Asked.say {}
    run.2.length = 3 ∧ told.advertisingData = some [2, 1, 6] ∧ asked.advertisingData = some [2, 1, 6] ∧
      told.whiteList (0, [1, 2, 3, 4, 5, 6]) = true ∧ told.whiteList (1, [1, 2, 3, 4, 5, 6]) = false ∧
      told.advertisingOn = false ∧ asked.advertisingOn = false := by decide +kernel

end Bt
