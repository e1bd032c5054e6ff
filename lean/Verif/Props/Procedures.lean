import Verif.Spec.Procedures
import Verif.Props.Answers
import Verif.Props.Forever
import Verif.Props.Echo

/-! # C105: commands that start a procedure, and the events that conclude it -/

namespace Bt

open Spec

theorem says_of_ok {c : Cfg} {V : Vendor} {code : UInt8} {ps : List UInt8} {e : V.Ev}
    (h : Event.new c V (frame code ps) = .ok e) : Says c V code ps e := by
  obtain ⟨code', ps', hf, -, hs⟩ := (C09_sound_and_complete c V _ _).mp h
  obtain ⟨rfl, rfl⟩ := frame_inj hf
  exact hs

section
variable {VS : Type}

theorem concludes_sound {c : Cfg} {V : Vendor} {cmd : Command VS} {code : UInt8} {qs : List UInt8} {e : V.Ev}
    (ht : TellsConclusion cmd e) (hs : Says c V code qs e) :
    Concludes (cmdOpcode cmd) (cmdParams cmd) (frame code qs) := by
  cases ht with
  | disconnected => cases hs; exact .disconnected
  | version =>
    cases hs
    rw [List.append_assoc]
    exact Concludes.version (ps := []) (by simp [le16])
  | connected =>
    cases hs
    simp only [List.append_assoc, List.cons_append]
    exact .connected (by simp [le16, addrType_seven])
  | updated hh =>
    cases hs
    simp only [cmdParams, hh, List.append_assoc, List.cons_append]
    exact .updated (by simp [le16])
  | features => cases hs; exact Concludes.features (ps := []) (by simp [le64, le])
  | encrypted hh =>
    cases hs
    simp only [cmdParams, hh, List.append_assoc]
    exact .encrypted
  | refreshed hh =>
    cases hs
    simp only [cmdParams, hh, List.append_assoc]
    exact .refreshed

theorem handle_eq {h h' : UInt16} {r r' : List UInt8} (h1 : le16 h ++ r = le16 h' ++ r') : h = h' :=
  le16_inj (List.append_inj h1 rfl).1

theorem concludes_complete {c : Cfg} {V : Vendor} {cmd : Command VS} {packet : List UInt8} {e : V.Ev}
    (hc : Concludes (cmdOpcode cmd) (cmdParams cmd) packet) (h : Event.new c V packet = .ok e) :
    TellsConclusion cmd e := by
  generalize ho : cmdOpcode cmd = o at hc
  generalize hp : cmdParams cmd = ps at hc
  cases hc with
  | @disconnected h₁ ps st reason =>
    have hs := says_of_ok h
    generalize hq : st :: le16 h₁ ++ [reason] = q at hs
    cases hs
    cases cmd with
    | disconnect hd r =>
      obtain ⟨hd⟩ := hd
      cases handle_eq hp
      cases handle_eq (List.cons.inj hq).2
      exact .disconnected
    | _ => exact absurd ho (by simp [cmdOpcode, op])
  | @version h₁ ps st qs hl =>
    have hs := says_of_ok h
    generalize hq : st :: le16 h₁ ++ qs = q at hs
    cases hs
    cases cmd with
    | readRemoteVersionInformation hd =>
      obtain ⟨hd⟩ := hd
      cases handle_eq (r := []) ((List.append_nil _).trans hp)
      rw [List.append_assoc] at hq
      cases handle_eq (List.cons.inj hq).2
      exact .version
    | _ => exact absurd ho (by simp [cmdOpcode, op])
  | @connected ps st h₁ qs hl =>
    have hs := says_of_ok h
    generalize hq : 0x01 :: st :: le16 h₁ ++ 0x00 :: qs = q at hs
    cases hs <;> simp only [List.cons_append, List.append_assoc, List.cons.injEq] at hq <;>
      try exact absurd hq.1 (by decide)
    rename_i role _ _ _ _ _ _ _ _
    have hr := (List.append_inj hq.2.2 rfl).2
    cases cmd with
    | leCreateConnection p =>
      cases role with
      | central => exact .connected
      | peripheral => exact absurd (List.cons.inj hr).1 (by simp [roleCode])
    | _ => exact absurd ho (by simp [cmdOpcode, op])
  | @updated h₁ ps st qs hl =>
    have hs := says_of_ok h
    generalize hq : 0x03 :: st :: le16 h₁ ++ qs = q at hs
    cases hs <;> simp only [List.cons_append, List.append_assoc, List.cons.injEq] at hq <;>
      try exact absurd hq.1 (by decide)
    cases cmd with
    | leConnectionUpdate p =>
      simp only [cmdParams, List.append_assoc] at hp
      exact .updated (congrArg ConnectionHandle.mk ((handle_eq hp).trans (handle_eq hq.2.2)))
    | _ => exact absurd ho (by simp [cmdOpcode, op])
  | @features h₁ ps st qs hl =>
    have hs := says_of_ok h
    generalize hq : 0x04 :: st :: le16 h₁ ++ qs = q at hs
    cases hs <;> simp only [List.cons_append, List.append_assoc, List.cons.injEq] at hq <;>
      try exact absurd hq.1 (by decide)
    cases cmd with
    | leReadRemoteUsedFeatures hd =>
      obtain ⟨hd⟩ := hd
      cases handle_eq (r := []) ((List.append_nil _).trans hp)
      cases handle_eq hq.2.2
      exact .features
    | _ => exact absurd ho (by simp [cmdOpcode, op])
  | @encrypted h₁ ps st on =>
    have hs := says_of_ok h
    generalize hq : st :: le16 h₁ ++ [on] = q at hs
    cases hs
    cases cmd with
    | leStartEncryption p =>
      simp only [cmdParams, List.append_assoc] at hp
      exact .encrypted (congrArg ConnectionHandle.mk ((handle_eq hp).trans (handle_eq (List.cons.inj hq).2)))
    | _ => exact absurd ho (by simp [cmdOpcode, op])
  | @refreshed h₁ ps st =>
    have hs := says_of_ok h
    generalize hq : st :: le16 h₁ = q at hs
    cases hs
    cases cmd with
    | leStartEncryption p =>
      simp only [cmdParams, List.append_assoc] at hp
      exact .refreshed (congrArg ConnectionHandle.mk ((handle_eq hp).trans (le16_inj (List.cons.inj hq).2)))
    | _ => exact absurd ho (by simp [cmdOpcode, op])

end

section
variable {σ E VS : Type} {V : Vendor} (c : Cfg) (l : Link) (k : Controller σ E) (vinto : VS → UInt8) (cmd : Command VS)

/-- **C105.** Whatever the API wrote as opcode `o` and parameters of a command, and whatever packet is decoded
later: the application can tell from the event that the command is concluded, by the kind of the event and the
connection in it, exactly if the packet concludes the command. -/
theorem C105_told (hc : cmd.Constructible c) (s : σ) (header payload : List UInt8)
    (hw : (cmd.exec (linkHeader l) (recording k) vinto (s, [])).2.2 = [.write header payload]) (o : UInt16)
    (ho : writtenOpcode l header = le16 o) (packet : List UInt8) (e : V.Ev)
    (he : Event.new c V packet = .ok e) : TellsConclusion cmd e ↔ Concludes o payload packet := by
  obtain ⟨-, rfl, rfl⟩ := wrote c l k vinto cmd hc s header payload hw
  have hop : writtenOpcode l (headerBytes l (cmdOpcode cmd) (cmdParams cmd).length) = le16 (cmdOpcode cmd) := by
    cases l <;> rfl
  obtain rfl := le16_inj (hop.symm.trans ho)
  constructor
  · intro ht
    obtain ⟨code, qs, rfl, -, hs⟩ := (C09_sound_and_complete c V _ _).mp he
    exact concludes_sound ht hs
  · exact fun h => concludes_complete h he

/-- A disconnection that was asked for. -/
example : (Command.exec (linkHeader .uart) (recording logController) (fun x : Unit => 0)
      (.disconnect ⟨0x0201⟩ .remoteTerminationByUser) ([], [])).2.2 =
      [.write [0x01, 0x06, 0x04, 3] [0x01, 0x02, 0x13]] ∧
    writtenOpcode .uart [0x01, 0x06, 0x04, 3] = le16 0x0406 ∧
    Event.new ⟨false, false⟩ demoVendor [0x05, 4, 0x00, 0x01, 0x02, 0x16] =
      .ok (.disconnectionComplete ⟨.success, ⟨0x0201⟩, .connectionTerminatedByHost⟩) ∧
    Concludes 0x0406 [0x01, 0x02, 0x13] [0x05, 4, 0x00, 0x01, 0x02, 0x16] :=
  ⟨rfl, rfl, rfl, Concludes.disconnected (h := 0x0201) (ps := [0x13]) (st := 0) (reason := 0x16)⟩

/-- **C105.** The commands that start a procedure are those that are answered with Command Status; each of them
can be concluded. -/
theorem C105_procedures : (∃ packet, Concludes (cmdOpcode cmd) (cmdParams cmd) packet) ↔
    answeredByComplete cmd = false := by
  constructor
  · rintro ⟨packet, h⟩
    generalize ho : cmdOpcode cmd = o at h
    generalize cmdParams cmd = ps at h
    cases h <;> cases cmd <;> first | rfl | exact absurd ho (by simp [cmdOpcode, op])
  · intro h
    cases cmd with
    | disconnect hd r => exact ⟨_, Concludes.disconnected (st := 0) (reason := 0)⟩
    | readRemoteVersionInformation hd =>
      exact ⟨_, Concludes.version (h := hd.val) (ps := []) (st := 0) (qs := [0, 0, 0, 0, 0]) rfl⟩
    | leCreateConnection p => exact ⟨_, Concludes.connected (st := 0) (h := 0) (qs := List.replicate 14 0) rfl⟩
    | leConnectionUpdate p =>
      simp only [cmdParams, List.append_assoc]
      exact ⟨_, Concludes.updated (st := 0) (qs := [0, 0, 0, 0, 0, 0]) rfl⟩
    | leReadRemoteUsedFeatures hd =>
      exact ⟨_, Concludes.features (h := hd.val) (ps := []) (st := 0) (qs := [0, 0, 0, 0, 0, 0, 0, 0]) rfl⟩
    | leStartEncryption p =>
      simp only [cmdParams, List.append_assoc]
      exact ⟨_, Concludes.refreshed (st := 0)⟩
    | _ => exact absurd h (by simp [answeredByComplete])

/-- **C105.** An event does not conclude two commands of different kinds, or about different connections. -/
theorem C105_no_confusion (cmd cmd' : Command VS) (e : V.Ev) (h : TellsConclusion cmd e)
    (h' : TellsConclusion cmd' e) :
    commandSent cmd' = commandSent cmd ∧ commandHandle cmd' = commandHandle cmd := by
  cases h <;> cases h' <;> first | exact ⟨rfl, rfl⟩ | skip
  all_goals
    rename_i h1 _ h2
    exact ⟨rfl, congrArg some (h2.trans h1.symm)⟩

example : TellsConclusion (V := demoVendor) (.disconnect (VS := Empty) ⟨7⟩ .remoteTerminationByUser)
    (.disconnectionComplete ⟨.success, ⟨7⟩, .connectionTerminatedByHost⟩) := .disconnected

end

section
variable {σ E VS : Type} {c : Cfg} {V : Vendor} {k : Controller σ E}
  {stream : σ → List UInt8} {taken : σ → Nat} {before : Nat → σ}

/-- **C105.** A procedure does not end unnoticed: if `read` is called for ever on a UART controller that again and
again serves three calls in a row, and a packet arrives that concludes the command and that can be decoded, then
some call returns an event that tells so. -/
theorem C105_noticed (hd : Delivers k stream taken)
    {results : Nat → Res (Nb (UartError E V.VErr)) (UartPacket V)}
    (hx : Forever stream taken (Uart.read c V k) before results)
    (hfair : Fair k stream taken 3 before) (packets : List (List UInt8)) (hf : ∀ p ∈ packets, Framed p)
    (i : Nat) (ha : uartBytes packets <+: (stream (before i)).drop (taken (before 0)))
    (cmd : Command VS) (p : List UInt8) (hp : p ∈ packets) (hc : Concludes (cmdOpcode cmd) (cmdParams cmd) p)
    (e : V.Ev) (he : Event.new c V p = .ok e) :
    ∃ j, results j = .ok (.event e) ∧ TellsConclusion cmd e := by
  obtain ⟨n, hn⟩ := C76_every_packet hd hx hfair packets hf i ha
  have hm : (.ok e : Res V.EvErr V.Ev) ∈ (firstResults results n).filterMap uartOutcome :=
    hn.subset (List.mem_map.mpr ⟨p, hp, he⟩)
  obtain ⟨r, hr, ho⟩ := List.mem_filterMap.mp hm
  obtain ⟨j, -, rfl⟩ := List.mem_map.mp hr
  refine ⟨j, ?_, concludes_complete hc he⟩
  cases hj : results j with
  | panic => rw [hj] at ho; cases ho
  | ok x =>
    rw [hj] at ho
    obtain ⟨e'⟩ := x
    cases ho
    rfl
  | err x =>
    rw [hj] at ho
    rcases x with _ | ⟨_ | _ | _⟩ <;> cases ho

/-- A version that was asked for arrives after another event, over a controller every fourth call of which
fails. -/
example : ∃ j, (Uart.read ⟨false, false⟩ demoVendor wobbly
      (after (Uart.read ⟨false, false⟩ demoVendor wobbly)
        ((uartBytes [[0x10, 0x01, 0x2A], [0x0C, 8, 0, 7, 0, 9, 0x0F, 0, 1, 0]], 0), 2) j)).1 =
    .ok (.event (.readRemoteVersionInformationComplete ⟨.success, ⟨7⟩, 9, 15, 1⟩)) := by
  obtain ⟨j, h, -⟩ := C105_noticed (c := ⟨false, false⟩) (V := demoVendor) wobbly_delivers
    (forever_after ((uartBytes [[0x10, 0x01, 0x2A], [0x0C, 8, 0, 7, 0, 9, 0x0F, 0, 1, 0]], 0), 2)) (wobbly_fair _)
    [[0x10, 0x01, 0x2A], [0x0C, 8, 0, 7, 0, 9, 0x0F, 0, 1, 0]]
    (by intro p hp; simp only [List.mem_cons, List.not_mem_nil, or_false] at hp
        rcases hp with rfl | rfl
        · exact ⟨0x10, [0x2A], by decide, rfl⟩
        · exact ⟨0x0C, [0, 7, 0, 9, 0x0F, 0, 1, 0], by decide, rfl⟩) 0 List.prefix_rfl
    (.readRemoteVersionInformation (VS := Empty) ⟨7⟩) [0x0C, 8, 0, 7, 0, 9, 0x0F, 0, 1, 0] (by simp)
    (Concludes.version (h := 7) (ps := []) (st := 0) (qs := [9, 0x0F, 0, 1, 0]) rfl) _ rfl
  exact ⟨j, h⟩

end

end Bt
