import Verif.Lemmas.Ledger
import Verif.Props.StandardEvents

/-! # C88: connections and buffer credits can be tracked -/

namespace Bt

open Spec

variable {σ E : Type} {c : Cfg} {V : Vendor}

/-- **C88** for one event of a conforming controller: the account of the application follows that of the
controller, whatever both were before, exactly for the events that are not missed. -/
theorem C88_event_partial (x : StdEvent) (hx : x.Conforms c) :
    (∀ L : Ledger, L.noteOutcome (Event.new c V x.packet) = L.send x) ↔ ¬ x.Missed c := by
  rcases fate_event c V x hx with ⟨⟨hr, hn⟩, e, he⟩ | ⟨hr, e, he⟩
  · rw [he]
    have hs := (C82_accepted x hx).2 e he
    refine iff_of_true (fun L => note_says L x e hs) ?_
    rintro (_ | _ | h)
    · exact hn .timeout
    · exact hn .updateTimeout
    · exact h hr
  · rw [he]
    change (∀ L : Ledger, L = L.send x) ↔ _
    have hf : ¬ x.InRange c → x.Failed := fun h => hx.inRange.resolve_right h
    have hst : ∀ {st rest}, x.errorCodes = st :: rest → x.Failed → st ≠ 0 := by
      rintro st rest h ⟨st', rest', h', h0⟩
      rw [h] at h'
      cases h'
      exact h0
    cases x with
    | connection st h a lt enc =>
      refine iff_of_true (fun L => ?_) (fun h => by cases h)
      have : ¬ st = 0 := hst rfl (hf fun h => hr ⟨h, by intro h; cases h⟩)
      exact (if_neg this).symm
    | encryptionChange st h enc =>
      refine iff_of_true (fun L => ?_) (fun h => by cases h)
      have : ¬ st = 0 := hst rfl (hf fun h => hr ⟨h, by intro h; cases h⟩)
      exact (if_neg this).symm
    | commandComplete n r =>
      have hi : ¬ (StdEvent.commandComplete n r).InRange c := fun h => hr ⟨h, by intro h; cases h⟩
      refine iff_of_false (fun h => ?_) (fun h => h (.reply hi))
      have := congrArg Ledger.allowed (h { allowed := n.toNat + 1 })
      exact absurd this (Nat.succ_ne_self _)
    | leConnection st h role pt p a l t clock =>
      by_cases h0 : st = 0
      · subst h0
        have hi := Classical.byContradiction fun h => hst rfl (hf h) rfl
        have hj : (StdEvent.leConnection 0 h role pt p a l t clock).Rejected c :=
          Classical.byContradiction fun h => hr ⟨hi, h⟩
        cases hj
        refine iff_of_false (fun hl => ?_) (fun h => h .connection)
        have := congrFun (congrArg Ledger.links (hl {})) h.toNat
        simp [Ledger.send, Ledger.begin, upd] at this
      · refine iff_of_true (fun L => (if_neg h0).symm) (fun h => ?_)
        cases h
        exact h0 rfl
    | leConnectionUpdate st h a l t =>
      by_cases h0 : st = 0
      · subst h0
        have hi := Classical.byContradiction fun h => hst rfl (hf h) rfl
        have hj : (StdEvent.leConnectionUpdate 0 h a l t).Rejected c :=
          Classical.byContradiction fun h => hr ⟨hi, h⟩
        cases hj
        refine iff_of_false (fun hl => ?_) (fun h => h .update)
        have := congrFun (congrArg Ledger.links (hl { links := fun _ => some (.le true [] false 0 0 0) })) h.toNat
        simp [Ledger.send, Ledger.change, Connection.update, upd, ms] at this
      · refine iff_of_true (fun L => (if_neg h0).symm) (fun h => ?_)
        cases h
        exact h0 rfl
    | leReports rs => exact iff_of_true (fun L => rfl) (fun h => by cases h)
    | leRemoteFeatures st h f => exact iff_of_true (fun L => rfl) (fun h => by cases h)
    | lePhyUpdate st h tx rx => exact iff_of_true (fun L => rfl) (fun h => by cases h)
    | bufferOverflow lt => exact iff_of_true (fun L => rfl) (fun h => by cases h)
    | _ => exact absurd ⟨trivial, by intro h; cases h⟩ hr

/-- A connection with a timeout of 200 ms is noted; an attempt that failed is rejected, but need not be
noted. -/
example : ¬ (StdEvent.leConnection 0 64 1 1 ⟨[1, 2, 3, 4, 5, 6], rfl⟩ 6 0 20 3).Missed ⟨true, false⟩ ∧
    ¬ (StdEvent.leConnection 0x3E 0 0 0 ⟨[0, 0, 0, 0, 0, 0], rfl⟩ 0 0 0 0).Missed ⟨true, false⟩ :=
  ⟨(fun h => by cases h), (fun h => by cases h)⟩

example : (({} : Ledger).noteOutcome (Event.new ⟨true, false⟩ demoVendor
      (StdEvent.leConnection 0 64 1 1 ⟨[1, 2, 3, 4, 5, 6], rfl⟩ 6 0 20 3).packet)).links 64 =
    some (.le false [1, 2, 3, 4, 5, 6] true 7500000 0 200000000) := by
  rw [(C88_event_partial _ ?_).mpr (fun h => by cases h)]
  · decide
  · refine ⟨?_, .inr ⟨by decide, by decide, ?_, by decide⟩, (by intro n o st h; cases h), by decide⟩
    · intro b hb
      rw [List.mem_singleton.mp hb]
      decide
    · exact ⟨by decide, by decide, by decide, by decide⟩

/-- **C88** as stated is false in every configuration and for every vendor: there is a connection that the
application does not know of. -/
theorem C88_fails (h : UInt16) (p : Arr 6) :
    let x : StdEvent := .leConnection 0 h 0 0 p 6 0 10 0
    x.Conforms c ∧ ∀ L : Ledger, L.links h.toNat = none →
      (L.send x).links h.toNat ≠ none ∧ (L.noteOutcome (Event.new c V x.packet)).links h.toNat = none := by
  intro x
  have hx : x.Conforms c := by
    refine ⟨?_, .inr ⟨by decide, by decide, ?_, by decide⟩, (by intro n o st h; exact StdEvent.noConfusion h), ?_⟩
    · intro b hb
      rw [List.mem_singleton.mp hb]
      unfold statusCount
      split <;> decide
    · exact ⟨by decide, by decide, by decide, by decide⟩
    · simp [x, StdEvent.params, p.len]
  refine ⟨hx, fun L hL => ⟨?_, ?_⟩⟩
  · simp [x, Ledger.send, Ledger.begin, upd]
  · rcases fate_event c V x hx with ⟨⟨-, hn⟩, -⟩ | ⟨-, e, he⟩
    · exact absurd .timeout hn
    · rw [he]
      exact hL

example : ({} : Ledger).links 64 = none := rfl

/-! ## A conversation -/

theorem ledger_fold (xs : List StdEvent) (hx : ∀ x ∈ xs, x.Conforms c ∧ ¬ x.Missed c) (L : Ledger) :
    (xs.map (fun x => Event.new c V x.packet)).foldl Ledger.noteOutcome L = xs.foldl Ledger.send L := by
  induction xs generalizing L with
  | nil => rfl
  | cons x xs ih =>
    obtain ⟨h1, h2⟩ := hx x (by simp)
    rw [List.map_cons, List.foldl_cons, List.foldl_cons, (C88_event_partial x h1).mpr h2 L]
    exact ih (fun y hy => hx y (by simp [hy])) _

variable {k : Controller σ E} {stream : σ → List UInt8} {taken : σ → Nat}

/-- **C88** (`uart`). A history with a conforming controller none of whose events is of the missed kind: the
account that the application keeps of the results of `read` is that of the controller for the events whose
packets have been taken. -/
theorem C88_uart_partial (hd : Delivers k stream taken) {s s' : σ}
    {rs : List (Res (Nb (UartError E V.VErr)) (UartPacket V))}
    (h : History stream taken (Uart.read c V k) s rs s') (xs : List StdEvent)
    (hx : ∀ x ∈ xs, x.Conforms c ∧ ¬ x.Missed c) (later : List UInt8)
    (hb : (stream s').drop (taken s) ++ later = uartBytes (xs.map StdEvent.packet)) (L : Ledger) :
    ∃ seen rest, xs = seen ++ rest ∧
      taken s' = taken s + (uartBytes (seen.map StdEvent.packet)).length ∧
      (rs.filterMap uartOutcome).foldl Ledger.noteOutcome L = seen.foldl Ledger.send L := by
  obtain ⟨⟨seen, rest, rfl, h1, h2⟩, -⟩ := C83_uart hd h xs (fun x hm => (hx x hm).1) later hb
  refine ⟨seen, rest, rfl, h2, ?_⟩
  rw [h1]
  exact ledger_fold seen (fun x hm => hx x (by simp [hm])) L

/-- A session: a connection, its encryption, data that were sent, and the end of another connection. -/
def ledgerSession : List StdEvent :=
  [.leConnection 0 64 0 0 ⟨[1, 2, 3, 4, 5, 6], rfl⟩ 6 0 20 0, .encryptionChange 0 64 1,
    .completedPackets [(64, 2), (65, 1), (64, 3)], .commandStatus 0 4 0x0406, .disconnection 0 65 0x13]

example : ∀ x ∈ ledgerSession, x.Conforms ⟨false, false⟩ ∧ ¬ x.Missed ⟨false, false⟩ := by
  intro x hx
  simp only [ledgerSession, List.mem_cons, List.not_mem_nil, or_false] at hx
  rcases hx with rfl | rfl | rfl | rfl | rfl
  · refine ⟨⟨?_, .inr ⟨by decide, by decide, ?_, by decide⟩, (by intro n o st h; cases h), by decide⟩,
      fun h => by cases h⟩
    · intro b hb
      rw [List.mem_singleton.mp hb]
      decide
    · exact ⟨by decide, by decide, by decide, by decide⟩
  · refine ⟨⟨?_, (.inr (show (1 : UInt8) ≤ 2 by decide)), (by intro n o st h; cases h), by decide⟩, fun h => by cases h⟩
    intro b hb
    rw [List.mem_singleton.mp hb]
    decide
  · refine ⟨⟨?_, .inr trivial, (by intro n o st h; cases h), by decide⟩, fun h => by cases h⟩
    intro b hb
    cases hb
  · refine ⟨⟨?_, .inr trivial, (by intro n o st h; cases h), by decide⟩, fun h => by cases h⟩
    intro b hb
    rw [List.mem_singleton.mp hb]
    decide
  · refine ⟨⟨?_, .inr trivial, (by intro n o st h; cases h), by decide⟩, fun h => by cases h⟩
    intro b hb
    simp only [StdEvent.errorCodes, List.mem_cons, List.not_mem_nil, or_false] at hb
    rcases hb with rfl | rfl <;> decide

/-- **C88** (`event_link`). The same without packet indicators. -/
theorem C88_event_link_partial (hd : Delivers k stream taken) {s s' : σ}
    {rs : List (Res (Nb (EventLinkError E V.VErr)) V.Ev)}
    (h : History stream taken (EventLink.read c V k) s rs s') (xs : List StdEvent)
    (hx : ∀ x ∈ xs, x.Conforms c ∧ ¬ x.Missed c) (later : List UInt8)
    (hb : (stream s').drop (taken s) ++ later = (xs.map StdEvent.packet).flatten) (L : Ledger) :
    ∃ seen rest, xs = seen ++ rest ∧
      taken s' = taken s + ((seen.map StdEvent.packet).flatten).length ∧
      (rs.filterMap linkOutcome).foldl Ledger.noteOutcome L = seen.foldl Ledger.send L := by
  obtain ⟨⟨seen, rest, rfl, h1, h2⟩, -⟩ := C83_event_link hd h xs (fun x hm => (hx x hm).1) later hb
  refine ⟨seen, rest, rfl, h2, ?_⟩
  rw [h1]
  exact ledger_fold seen (fun x hm => hx x (by simp [hm])) L

example : let L : Ledger := ledgerSession.foldl Ledger.send {}
    L.links 64 = some (.le true [1, 2, 3, 4, 5, 6] false 7500000 0 200000000) ∧ L.links 65 = none ∧
      L.encrypted 64 = true ∧ L.completed 64 = 5 ∧ L.completed 65 = 0 ∧ L.allowed = 4 := by decide

end Bt
