import Verif.Spec.Sessions
import Verif.Spec.Demo
import Verif.Lemmas.Histories
import Verif.Props.Commands

/-! # Sessions and patient controllers -/

namespace Bt

open Spec

variable {σ E : Type} {c : Cfg} {V : Vendor} {k : Controller σ E}
  {stream : σ → List UInt8} {taken : σ → Nat} {sent : σ → List UInt8} {patience : σ → Nat}

/-! ## Commands -/

/-- A command takes no received byte, and sends itself if it returns Ok and nothing otherwise. -/
theorem exec_step (hk : Duplex k stream taken sent) {VS : Type} {vinto : VS → UInt8} (l : Link)
    {cmd : Command VS} (hc : cmd.Constructible c) {s s' : σ} {r : Res (Nb (HostError E VS)) Unit}
    (h : cmd.exec (linkHeader l) k vinto s = (r, s')) :
    stream s <+: stream s' ∧ taken s' = taken s ∧
    ((r = .ok () ∧ (cmdParams cmd).length < 256 ∧
        sent s' = sent s ++ (headerBytes l (cmdOpcode cmd) (cmdParams cmd).length ++ cmdParams cmd)) ∨
      (r ≠ .ok () ∧ sent s' = sent s)) := by
  cases hr : cmdReject (E := E) cmd with
  | some e =>
    rw [C40_rejected c l k vinto cmd hc e hr s] at h
    obtain ⟨rfl, rfl⟩ := Prod.mk.inj h
    exact ⟨List.prefix_rfl, rfl, .inr ⟨by simp, rfl⟩⟩
  | none =>
    obtain ⟨hx, hlen⟩ := C39_one_framed_write c l k vinto cmd hc hr s
    rw [hx] at h
    obtain ⟨rfl, rfl⟩ := Prod.mk.inj h
    obtain ⟨h1, h2⟩ := hk.write (headerBytes l (cmdOpcode cmd) (cmdParams cmd).length) (cmdParams cmd) s
    have hok := hk.writes.ok (headerBytes l (cmdOpcode cmd) (cmdParams cmd).length) (cmdParams cmd) s
    have herr := hk.writes.err (headerBytes l (cmdOpcode cmd) (cmdParams cmd).length) (cmdParams cmd) s
    have hpan := hk.writes.noPanic (headerBytes l (cmdOpcode cmd) (cmdParams cmd).length) (cmdParams cmd) s
    refine ⟨h1, h2, ?_⟩
    cases hw : (k.write (headerBytes l (cmdOpcode cmd) (cmdParams cmd).length) (cmdParams cmd) s).1 with
    | ok u => exact .inl ⟨rfl, hlen, hok hw⟩
    | err e => exact .inr ⟨by simp [Res.mapErr], herr e hw⟩
    | panic => exact absurd hw hpan

/-! ## Two links -/

theorem twoLinks_duplex {σ₁ σ₂ : Type} {events : Controller σ₁ E} {commands : Controller σ₂ E}
    {stream : σ₁ → List UInt8} {taken : σ₁ → Nat} {sent : σ₂ → List UInt8} (hd : Delivers events stream taken)
    (hw : WritesAtomically commands sent) :
    Duplex (twoLinks events commands) (fun s => stream s.1) (fun s => taken s.1) (fun s => sent s.2) where
  delivers :=
    { peek := fun n s r s' h => by
        obtain ⟨rfl, rfl⟩ := Prod.mk.inj h
        exact hd.peek n s.1 _ _ rfl
      readInto := fun n s r s' h => by
        obtain ⟨rfl, rfl⟩ := Prod.mk.inj h
        exact hd.readInto n s.1 _ _ rfl }
  writes := ⟨fun h p s => hw.ok h p s.2, fun h p s => hw.err h p s.2, fun h p s => hw.noPanic h p s.2⟩
  write _ _ _ := ⟨List.prefix_rfl, rfl⟩
  peek _ _ := rfl
  readInto _ _ := rfl

/-! ## Reads send nothing -/

theorem uart_sends_nothing (hk : Duplex k stream taken sent) (s : σ) :
    sent (Uart.read c V k s).2 = sent s := by
  rw [uartRead_eq]
  have h0 := hk.peek 0 s
  rcases heh0 : k.peek 0 s with ⟨r, s₁⟩
  rw [heh0] at h0
  cases r with
  | panic => exact h0
  | err e => exact h0
  | ok x =>
    simp only at h0 ⊢
    split
    · have h2 := hk.peek 2 s₁
      rcases heh2 : k.peek 2 s₁ with ⟨r, s₂⟩
      rw [heh2] at h2
      cases r with
      | panic => exact h2.trans h0
      | err e => exact h2.trans h0
      | ok l =>
        simp only at h2 ⊢
        have h3 := hk.readInto (3 + l.toNat) s₂
        rcases heh3 : k.readInto (3 + l.toNat) s₂ with ⟨r, s₃⟩
        rw [heh3] at h3
        cases r <;> exact h3.trans (h2.trans h0)
    · exact h0

theorem link_sends_nothing (hk : Duplex k stream taken sent) (s : σ) :
    sent (EventLink.read c V k s).2 = sent s := by
  rw [linkRead_eq]
  have h2 := hk.peek 1 s
  rcases heh2 : k.peek 1 s with ⟨r, s₂⟩
  rw [heh2] at h2
  cases r with
  | panic => exact h2
  | err e => exact h2
  | ok l =>
    simp only at h2 ⊢
    have h3 := hk.readInto (2 + l.toNat) s₂
    rcases heh3 : k.readInto (2 + l.toNat) s₂ with ⟨r, s₃⟩
    rw [heh3] at h3
    cases r <;> exact h3.trans h2

/-! ## Sessions -/

/-- Seen from the receiving side, commands are waits. -/
theorem session_history (hk : Duplex k stream taken sent) {VS ε α : Type} {vinto : VS → UInt8} (l : Link)
    {read : Ctl σ ε α} {s s' : σ} {as : List (Act VS E (Res ε α))}
    (h : Session stream taken sent read (·.exec (linkHeader l) k vinto) (·.Constructible c) s as s') :
    History stream taken read s (Act.reads as) s' := by
  induction h with
  | nil s => exact .nil s
  | wait h1 h2 _ _ ih => exact .wait h1 h2 ih
  | read hr _ ih => exact .call hr ih
  | command hc hr _ ih =>
    obtain ⟨h1, h2, -⟩ := exec_step hk l hc hr
    exact .wait h1 h2 ih

/-- The bytes of a command on the wire. -/
def cmdBytes (l : Link) (p : UInt16 × List UInt8) : List UInt8 := headerBytes l p.1 p.2.length ++ p.2

theorem session_sent (hk : Duplex k stream taken sent) {VS ε α : Type} {vinto : VS → UInt8} (l : Link)
    {read : Ctl σ ε α} (hread : ∀ s, sent (read s).2 = sent s) {s s' : σ}
    {as : List (Act VS E (Res ε α))}
    (h : Session stream taken sent read (·.exec (linkHeader l) k vinto) (·.Constructible c) s as s') :
    sent s' = sent s ++ ((Act.accepted as).map (cmdBytes l)).flatten ∧
      ∀ p ∈ Act.accepted as, p.2.length < 256 := by
  induction h with
  | nil s => simp [Act.accepted]
  | wait _ _ h3 _ ih => rw [h3] at ih; exact ih
  | @read s r s₁ as s' hr _ ih =>
    have := hread s
    rw [hr] at this
    simp only at this
    rw [this] at ih
    exact ih
  | @command s cmd r s₁ as s' hc hr _ ih =>
    obtain ⟨-, -, ⟨rfl, hl, h3⟩ | ⟨hne, h3⟩⟩ := exec_step hk l hc hr
    · rw [h3] at ih
      have e : Act.accepted (.command cmd (.ok ()) :: as) =
        (cmdOpcode cmd, cmdParams cmd) :: Act.accepted as := rfl
      rw [e]
      refine ⟨?_, fun p hp => ?_⟩
      · rw [ih.1, List.map_cons, List.flatten_cons, List.append_assoc]
        rfl
      · rcases List.mem_cons.mp hp with rfl | hp
        · exact hl
        · exact ih.2 p hp
    · rw [h3] at ih
      have e : Act.accepted (.command cmd r :: as) = Act.accepted as := by
        cases r with
        | ok u => exact absurd rfl hne
        | err e => rfl
        | panic => rfl
      rw [e]
      exact ih

theorem parse_all (ps : List (UInt16 × List UInt8)) (hp : ∀ p ∈ ps, p.2.length < 256) :
    parseCommands (ps.map (cmdBytes .uart)).flatten = some ps := by
  induction ps with
  | nil => rfl
  | cons p ps ih =>
    rw [List.map_cons, List.flatten_cons, cmdBytes, parse_cons _ _ _ (hp p (.head _)),
      ih (fun q hq => hp q (.tail _ hq))]
    rfl

/-! ## Patience -/

theorem peek_patient (hd : Delivers k stream taken) (hp : Patient k stream taken patience) {s : σ} {n : Nat}
    {b : UInt8} (hb : (pending stream taken s)[n]? = some b) {r : Res (Nb E) UInt8} {s' : σ}
    (h : k.peek n s = (r, s')) :
    patience s' ≤ patience s ∧ pending stream taken s <+: pending stream taken s' ∧
      (r = .ok b ∨ (∃ e, r = .err e) ∧ patience s' < patience s) := by
  obtain ⟨hlt, -⟩ := List.getElem?_eq_some_iff.mp hb
  obtain ⟨h1, h2⟩ := hp.peek n s hlt
  rw [h] at h1 h2
  obtain ⟨np, p1, t1, g1⟩ := hd.peek _ _ _ _ h
  refine ⟨h1, pending_mono p1 t1, ?_⟩
  cases r with
  | panic => exact absurd rfl np
  | err e => exact .inr ⟨⟨e, rfl⟩, h2.resolve_left (by simp)⟩
  | ok b' =>
    have h4 := prefix_get (pending_mono p1 t1) hb
    unfold pending at h4
    rw [t1, List.getElem?_drop, g1 b' rfl] at h4
    exact .inl (by rw [Option.some.inj h4])

theorem readInto_patient (hd : Delivers k stream taken) (hp : Patient k stream taken patience) {s : σ} {n : Nat}
    (hn : n ≤ (pending stream taken s).length) {r : Res (Nb E) (Arr n)} {s' : σ}
    (h : k.readInto n s = (r, s')) :
    patience s' ≤ patience s ∧
      ((∃ got, r = .ok got) ∨ (∃ e, r = .err e) ∧ patience s' < patience s) := by
  obtain ⟨h1, h2⟩ := hp.readInto n s hn
  rw [h] at h1 h2
  obtain ⟨np, -⟩ := hd.readInto _ _ _ _ h
  refine ⟨h1, ?_⟩
  cases r with
  | panic => exact absurd rfl np
  | err e => exact .inr ⟨⟨e, rfl⟩, h2.resolve_left (by simp)⟩
  | ok got => exact .inl ⟨got, rfl⟩

theorem packet_fits {code : UInt8} {ps X tail Y : List UInt8} (hl : ps.length ≤ 255)
    (hX : X = frame code ps ++ tail) (hY : X <+: Y) :
    2 + (UInt8.ofNat ps.length).toNat ≤ Y.length := by
  have := hY.length_le
  rw [hX] at this
  have hn : (UInt8.ofNat ps.length).toNat = ps.length := by rw [UInt8.toNat_ofNat']; omega
  simp only [frame, List.cons_append, List.length_cons, List.length_append] at this
  omega

theorem uart_patient (hd : Delivers k stream taken) (hp : Patient k stream taken patience) {s s' : σ}
    {p tail : List UInt8} (hf : Framed p) (hs : pending stream taken s = 0x04 :: p ++ tail)
    {r : Res (Nb (UartError E V.VErr)) (UartPacket V)} (h : Uart.read c V k s = (r, s')) :
    patience s' ≤ patience s ∧ (uartOutcome r = none → patience s' < patience s) := by
  obtain ⟨code, ps, hl, rfl⟩ := hf
  rw [uartRead_eq] at h
  rcases h0 : k.peek 0 s with ⟨r0, s₁⟩
  rw [h0] at h
  obtain ⟨q1, m1, rfl | ⟨⟨e, rfl⟩, l1⟩⟩ := peek_patient hd hp (b := 0x04) (by rw [hs]; rfl) h0
  · simp only [if_true] at h
    rcases h2 : k.peek 2 s₁ with ⟨r2, s₂⟩
    rw [h2] at h
    obtain ⟨q2, m2, rfl | ⟨⟨e, rfl⟩, l2⟩⟩ := peek_patient hd hp (b := UInt8.ofNat ps.length)
      (prefix_get m1 (by rw [hs]; rfl)) h2
    · simp only at h
      rcases h3 : k.readInto (3 + (UInt8.ofNat ps.length).toNat) s₂ with ⟨r3, s₃⟩
      rw [h3] at h
      have hn : (UInt8.ofNat ps.length).toNat = ps.length := by rw [UInt8.toNat_ofNat']; omega
      obtain ⟨q3, ⟨got, rfl⟩ | ⟨⟨e, rfl⟩, l3⟩⟩ := readInto_patient hd hp (by
        have := (m1.trans m2).length_le
        rw [hs] at this
        simp only [frame, List.cons_append, List.length_cons, List.length_append] at this
        omega) h3
      · obtain ⟨rfl, rfl⟩ := Prod.mk.inj h
        refine ⟨by omega, fun ho => ?_⟩
        revert ho
        cases Event.new c V (got.val.drop 1) <;> simp [uartResult, uartOutcome]
      · obtain ⟨rfl, rfl⟩ := Prod.mk.inj h
        exact ⟨by omega, fun _ => by omega⟩
    · obtain ⟨rfl, rfl⟩ := Prod.mk.inj h
      exact ⟨by omega, fun _ => by omega⟩
  · obtain ⟨rfl, rfl⟩ := Prod.mk.inj h
    exact ⟨by omega, fun _ => by omega⟩

theorem link_patient (hd : Delivers k stream taken) (hp : Patient k stream taken patience) {s s' : σ}
    {p tail : List UInt8} (hf : Framed p) (hs : pending stream taken s = p ++ tail)
    {r : Res (Nb (EventLinkError E V.VErr)) V.Ev} (h : EventLink.read c V k s = (r, s')) :
    patience s' ≤ patience s ∧ (linkOutcome r = none → patience s' < patience s) := by
  obtain ⟨code, ps, hl, rfl⟩ := hf
  rw [linkRead_eq] at h
  rcases h2 : k.peek 1 s with ⟨r2, s₂⟩
  rw [h2] at h
  obtain ⟨q2, m2, rfl | ⟨⟨e, rfl⟩, l2⟩⟩ := peek_patient hd hp (b := UInt8.ofNat ps.length)
    (by rw [hs]; rfl) h2
  · simp only at h
    rcases h3 : k.readInto (2 + (UInt8.ofNat ps.length).toNat) s₂ with ⟨r3, s₃⟩
    rw [h3] at h
    obtain ⟨q3, ⟨got, rfl⟩ | ⟨⟨e, rfl⟩, l3⟩⟩ := readInto_patient hd hp (packet_fits hl hs m2) h3
    · obtain ⟨rfl, rfl⟩ := Prod.mk.inj h
      refine ⟨by omega, fun ho => ?_⟩
      revert ho
      cases Event.new c V got.val <;> simp [linkResult, linkOutcome]
    · obtain ⟨rfl, rfl⟩ := Prod.mk.inj h
      exact ⟨by omega, fun _ => by omega⟩
  · obtain ⟨rfl, rfl⟩ := Prod.mk.inj h
    exact ⟨by omega, fun _ => by omega⟩

variable {ε α δ : Type} {m : Ctl σ ε α} {w : List UInt8 → List UInt8} {outcome : Res ε α → Option δ}
  {decode : List UInt8 → δ}

/-- With a packet pending, a call reports it, or uses up patience. -/
theorem recover (hw : PrefixFree w) (hm : Steps stream taken m w outcome decode)
    (hp : ∀ {s s' p tail r}, Framed p → pending stream taken s = w p ++ tail → m s = (r, s') →
      patience s' ≤ patience s ∧ (outcome r = none → patience s' < patience s)) :
    ∀ (n : Nat) (s : σ) (packets : List (List UInt8)) (tail : List UInt8), (∀ p ∈ packets, Framed p) →
      pending stream taken s = wire w packets ++ tail → packets.length + patience s ≤ n →
      packets.map decode <+: (callTimes m n s).1.filterMap outcome
  | _, _, [], _, _, _, _ => List.nil_prefix
  | 0, s, p :: ps, _, _, _, hn => by simp at hn
  | n + 1, s, p :: ps, tail, hf, hs, hn => by
    rw [wire_cons, List.append_assoc] at hs
    rcases hr : m s with ⟨r, s'⟩
    obtain ⟨h1, h2⟩ := hp (hf p (.head _)) hs hr
    obtain ⟨hst, ⟨ht, ho⟩ | ⟨q, hq, ht, hb, ho⟩⟩ := hm s r s' hr
    · have h3 := h2 ho
      obtain ⟨t, ht'⟩ := pending_mono hst ht
      rw [hs] at ht'
      have := recover hw hm hp n s' (p :: ps) (tail ++ t) hf (by
        rw [← ht', wire_cons]; simp only [List.append_assoc]) (by omega)
      simp only [callTimes, hr, List.filterMap_cons, ho]
      exact this
    · obtain ⟨t, ht'⟩ := prefix_drop hst (taken s)
      have hs' : (stream s).drop (taken s) = w p ++ (wire w ps ++ tail) := hs
      rw [hs', hb, List.append_assoc] at ht'
      obtain ⟨rfl, hrest⟩ := hw p q _ _ (hf p (.head _)) hq ht'
      have := recover hw hm hp n s' ps (tail ++ t) (fun x hx => hf x (.tail _ hx)) (by
        unfold pending
        rw [← hrest, List.append_assoc]) (by simp only [List.length_cons] at hn; omega)
      simp only [callTimes, hr, List.filterMap_cons, ho, List.map_cons]
      exact List.cons_prefix_cons.mpr ⟨rfl, this⟩

/-- The third call of every read fails. -/
theorem unlucky_read (i : Nat) : Uart.read ⟨false, false⟩ demoVendor unlucky (([0x04, 0x10, 0x01, 0x2A], 0), 3 * i) =
    (.err (.other (.comm ())), (([0x04, 0x10, 0x01, 0x2A], 0), 3 * (i + 1))) := by
  have h0 : unlucky.peek 0 (([0x04, 0x10, 0x01, 0x2A], 0), 3 * i) =
      (.ok 0x04, (([0x04, 0x10, 0x01, 0x2A], 0), 3 * i + 1)) := by
    simp only [unlucky, thirdFails]
    rw [if_neg (by omega)]
    rfl
  have h1 : unlucky.peek 2 (([0x04, 0x10, 0x01, 0x2A], 0), 3 * i + 1) =
      (.ok 0x01, (([0x04, 0x10, 0x01, 0x2A], 0), 3 * i + 1 + 1)) := by
    simp only [unlucky, thirdFails]
    rw [if_neg (by omega)]
    rfl
  have h2 : unlucky.readInto (3 + (0x01 : UInt8).toNat) (([0x04, 0x10, 0x01, 0x2A], 0), 3 * i + 1 + 1) =
      (.err (.other ()), (([0x04, 0x10, 0x01, 0x2A], 0), 3 * (i + 1))) := by
    simp only [unlucky, thirdFails]
    rw [if_pos (by omega)]
    rfl
  rw [uartRead_eq, h0]
  simp only [if_true]
  rw [h1]
  simp only
  rw [h2]
  rfl

end Bt
