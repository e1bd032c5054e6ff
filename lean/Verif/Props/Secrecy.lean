import Verif.Spec.Secrecy
import Verif.Lemmas.Ledger
import Verif.Lemmas.Histories
import Verif.Props.Procedures
import Verif.Props.Streams

/-! # No packet makes a host believe wrongly that a connection is encrypted -/

namespace Bt

open Spec

variable {σ E : Type} {c : Cfg} {V : Vendor}

theorem encrypts_note {h : UInt16} {code : UInt8} {ps : List UInt8} {e : V.Ev} (hs : Says c V code ps e)
    (he : Encrypts h (frame code ps)) (L : Ledger) : (L.note e).encrypted h.toNat = true := by
  generalize hp : frame code ps = p at he
  cases he with
  | @change x hx =>
    obtain ⟨rfl, rfl⟩ := frame_inj hp
    rw [note_says L (.encryptionChange 0 h x) e hs]
    rcases hx with rfl | rfl <;> simp [Ledger.send, upd]
  | @connection a lt ha =>
    obtain ⟨rfl, rfl⟩ := frame_inj hp
    rw [note_says L (.connection 0 h ⟨a, ha⟩ lt 1) e hs]
    simp [Ledger.send, Ledger.begin, upd]

theorem unencrypts_note {h : UInt16} {code : UInt8} {ps : List UInt8} {e : V.Ev} (hs : Says c V code ps e)
    (he : Unencrypts h (frame code ps)) (L : Ledger) : (L.note e).encrypted h.toNat = false := by
  generalize hp : frame code ps = p at he
  cases he with
  | change =>
    obtain ⟨rfl, rfl⟩ := frame_inj hp
    rw [note_says L (.encryptionChange 0 h 0) e hs]
    simp [Ledger.send, upd]
  | @disconnection r =>
    obtain ⟨rfl, rfl⟩ := frame_inj hp
    rw [note_says L (.disconnection 0 h r) e hs]
    simp [Ledger.send, Ledger.finish, upd]
  | @connection a lt ha =>
    obtain ⟨rfl, rfl⟩ := frame_inj hp
    rw [note_says L (.connection 0 h ⟨a, ha⟩ lt 0) e hs]
    simp [Ledger.send, Ledger.begin, upd]
  | @leConnection rest =>
    obtain ⟨rfl, hq⟩ := frame_inj hp
    cases hs <;> first | exact absurd (List.cons.inj hq).1 (by decide) | skip
    rename_i st s h' role peer a l t i clock hst hi
    have k : (0x01 :: st :: le16 h') ++ (roleCode role :: addrTypeBytes peer ++ le16 a ++ le16 l ++ le16 t ++
        [clockCode clock]) = (0x01 :: 0 :: le16 h) ++ rest := by simpa using hq
    obtain ⟨k1, -⟩ := peel k (by simp)
    obtain ⟨rfl, k2⟩ := List.cons.inj (List.cons.inj k1).2
    cases le16_inj k2
    simp [Ledger.note, (succeeded_iff hst).mpr rfl, Ledger.begin, upd]

/-- An accepted packet says that the connection is encrypted, or that it is not, or changes nothing. -/
theorem encryption_cases {code : UInt8} {ps : List UInt8} {e : V.Ev} (hs : Says c V code ps e) (h : UInt16)
    (L : Ledger) : Encrypts h (frame code ps) ∨ Unencrypts h (frame code ps) ∨
      (L.note e).encrypted h.toNat = L.encrypted h.toNat := by
  cases hs with
  | @connectionComplete st s h' a lt enc hst =>
    by_cases h0 : st = 0
    · subst h0
      by_cases hh : h' = h
      · subst hh
        cases enc with
        | false => exact .inr (.inl (.connection a.val.len))
        | true => exact .inl (.connection a.val.len)
      · refine .inr (.inr ?_)
        have : ¬ h.toNat = h'.toNat := fun k => hh (UInt16.toNat_inj.mp k.symm)
        simp [Ledger.note, (succeeded_iff hst).mpr rfl, Ledger.begin, upd, this]
    · refine .inr (.inr ?_)
      have : succeeded s = false := by
        cases hb : succeeded s with
        | false => rfl
        | true => exact absurd ((succeeded_iff hst).mp hb) h0
      simp [Ledger.note, this]
  | @disconnectionComplete st s h' rs r hst _ =>
    by_cases h0 : st = 0
    · subst h0
      by_cases hh : h' = h
      · subst hh
        exact .inr (.inl .disconnection)
      · refine .inr (.inr ?_)
        have : ¬ h.toNat = h'.toNat := fun k => hh (UInt16.toNat_inj.mp k.symm)
        simp [Ledger.note, (succeeded_iff hst).mpr rfl, Ledger.finish, upd, this]
    · refine .inr (.inr ?_)
      have : succeeded s = false := by
        cases hb : succeeded s with
        | false => rfl
        | true => exact absurd ((succeeded_iff hst).mp hb) h0
      simp [Ledger.note, this]
  | @encryptionChange st s h' x hst =>
    by_cases h0 : st = 0
    · subst h0
      by_cases hh : h' = h
      · subst hh
        cases x with
        | off => exact .inr (.inl .change)
        | _ => first | exact .inl (.change (.inl rfl)) | exact .inl (.change (.inr rfl))
      · refine .inr (.inr ?_)
        have : ¬ h.toNat = h'.toNat := fun k => hh (UInt16.toNat_inj.mp k.symm)
        simp [Ledger.note, (succeeded_iff hst).mpr rfl, upd, this]
    · refine .inr (.inr ?_)
      have : succeeded s = false := by
        cases hb : succeeded s with
        | false => rfl
        | true => exact absurd ((succeeded_iff hst).mp hb) h0
      simp [Ledger.note, this]
  | @leConnectionComplete st s h' role peer a l t i clock hst hi =>
    by_cases h0 : st = 0
    · subst h0
      by_cases hh : h' = h
      · subst hh
        have := Unencrypts.leConnection (h := h') (rest := roleCode role :: addrTypeBytes peer ++
          le16 a ++ le16 l ++ le16 t ++ [clockCode clock])
        exact .inr (.inl (by simpa using this))
      · refine .inr (.inr ?_)
        have : ¬ h.toNat = h'.toNat := fun k => hh (UInt16.toNat_inj.mp k.symm)
        simp [Ledger.note, (succeeded_iff hst).mpr rfl, Ledger.begin, upd, this]
    · refine .inr (.inr ?_)
      have : succeeded s = false := by
        cases hb : succeeded s with
        | false => rfl
        | true => exact absurd ((succeeded_iff hst).mp hb) h0
      simp [Ledger.note, this]
  | leConnectionUpdateComplete _ _ =>
    refine .inr (.inr ?_)
    simp only [Ledger.note]
    split <;> rfl
  | numberOfCompletedPackets _ =>
    refine .inr (.inr ?_)
    simp only [Ledger.note]
    split <;> rfl
  | _ => exact .inr (.inr rfl)

theorem rejected_note {h : UInt16} {p : List UInt8} (hp : ¬ Accepted c V p) (L : Ledger) :
    (L.noteOutcome (Event.new c V p)).encrypted h.toNat = L.encrypted h.toNat := by
  cases he : Event.new c V p with
  | ok e => exact absurd ⟨e, he⟩ hp
  | _ => rfl

theorem encrypts_not_unencrypts {h : UInt16} {p : List UInt8} (hp : Accepted c V p) (he : Encrypts h p) :
    ¬ Unencrypts h p := by
  obtain ⟨e, hp⟩ := hp
  obtain ⟨code, qs, rfl, -, hs⟩ := (C09_sound_and_complete c V _ _).mp hp
  intro hu
  have a := encrypts_note hs he {}
  rw [unencrypts_note hs hu] at a
  cases a

/-- **C106**: whatever the packets, well-formed or not, an application that keeps account believes a connection to be
encrypted exactly if the last accepted packet that speaks of its encryption says so. -/
theorem C106_exact (packets : List (List UInt8)) (h : UInt16) :
    ((packets.map (Event.new c V)).foldl Ledger.noteOutcome {}).encrypted h.toNat = true ↔
      LastEncrypts c V h packets := by
  obtain ⟨qs, rfl⟩ : ∃ qs : List (List UInt8), packets = qs.reverse := ⟨packets.reverse, by simp⟩
  induction qs with
  | nil =>
    refine iff_of_false (by simp) ?_
    rintro ⟨before, p, after, hp, -⟩
    simp at hp
  | cons p qs ih =>
    rw [List.reverse_cons]
    generalize qs.reverse = ps at ih
    rw [List.map_append, List.foldl_append]
    generalize (ps.map (Event.new c V)).foldl Ledger.noteOutcome {} = L at ih
    change (L.noteOutcome (Event.new c V p)).encrypted h.toNat = true ↔ _
    have keep : (¬ Accepted c V p ∨ ¬ Unencrypts h p) → LastEncrypts c V h ps → LastEncrypts c V h (ps ++ [p]) := by
      rintro hu ⟨before, q, after, rfl, ha, he, hn⟩
      refine ⟨before, q, after ++ [p], by simp, ha, he, ?_⟩
      intro x hx hacc
      rcases List.mem_append.mp hx with hx | hx
      · exact hn x hx hacc
      · cases List.mem_singleton.mp hx
        rcases hu with hu | hu
        · exact absurd hacc hu
        · exact hu
    have back : (¬ Accepted c V p ∨ ¬ Encrypts h p) → LastEncrypts c V h (ps ++ [p]) →
        LastEncrypts c V h ps ∧ (Accepted c V p → ¬ Unencrypts h p) := by
      rintro hu ⟨before, q, after, hp, ha, he, hn⟩
      rcases List.eq_nil_or_concat after with rfl | ⟨after', x, rfl⟩
      · obtain ⟨-, hq⟩ := List.append_inj' hp rfl
        cases hq
        rcases hu with hu | hu
        · exact absurd ha hu
        · exact absurd he hu
      · rw [List.concat_eq_append, ← List.cons_append, ← List.append_assoc] at hp
        obtain ⟨rfl, hq⟩ := List.append_inj' hp rfl
        cases hq
        refine ⟨⟨before, q, after', rfl, ha, he, fun y hy => hn y (by simp [hy])⟩, hn p (by simp)⟩
    by_cases hacc : Accepted c V p
    · obtain ⟨e, he⟩ := hacc
      obtain ⟨code, qs, rfl, -, hs⟩ := (C09_sound_and_complete c V _ _).mp he
      rw [he]
      change (L.note e).encrypted h.toNat = true ↔ _
      rcases encryption_cases hs h L with hc | hc | hc
      · rw [encrypts_note hs hc]
        exact iff_of_true rfl ⟨ps, _, [], rfl, ⟨e, he⟩, hc, by simp⟩
      · rw [unencrypts_note hs hc]
        refine iff_of_false (by simp) fun hl => ?_
        have hne : ¬ Encrypts h (frame code qs) := fun h2 => encrypts_not_unencrypts ⟨e, he⟩ h2 hc
        exact (back (.inr hne) hl).2 ⟨e, he⟩ hc
      · by_cases h1 : Encrypts h (frame code qs)
        · rw [encrypts_note hs h1]
          exact iff_of_true rfl ⟨ps, _, [], rfl, ⟨e, he⟩, h1, by simp⟩
        by_cases h2 : Unencrypts h (frame code qs)
        · rw [unencrypts_note hs h2]
          exact iff_of_false (by simp) fun hl => (back (.inr h1) hl).2 ⟨e, he⟩ h2
        rw [hc, ih]
        exact ⟨keep (.inr h2), fun hl => (back (.inr h1) hl).1⟩
    · rw [rejected_note hacc, ih]
      exact ⟨keep (.inl hacc), fun hl => (back (.inl hacc) hl).1⟩

/-- A connection that is made, encrypted and ended, and one that stays encrypted. The fifth packet is cut short. -/
def secrecySession : List (List UInt8) :=
  [frame 0x08 [0, 0x40, 0, 1], frame 0x08 [0, 0x41, 0, 1], frame 0x05 [0, 0x40, 0, 0x13], frame 0x08 [5, 0x41, 0, 0],
    [0x08, 4, 0, 0x41]]

example : LastEncrypts c demoVendor 0x41 secrecySession ∧ ¬ LastEncrypts c demoVendor 0x40 secrecySession :=
  ⟨(C106_exact _ _).mp (by cases c with | mk a b => cases b <;> rfl),
    fun h => absurd ((C106_exact _ _).mpr h) (by cases c with | mk a b => cases a <;> cases b <;> decide)⟩

/-- **C106**: the packets that turn encryption on or off are accepted, whatever the configuration and the vendor, and
the packet that ends a connection is accepted exactly if its reason is a status code that is known. -/
theorem C106_accepted (h : UInt16) (e reason : UInt8) :
    (Accepted c V (frame 0x08 (0 :: le16 h ++ [e])) ↔ e ≤ 2) ∧
    (Accepted c V (frame 0x05 (0 :: le16 h ++ [reason])) ↔ ∃ r, StatusByte c V reason r) := by
  have h0 : StatusByte c V 0 .success := by
    unfold StatusByte
    rw [if_pos (by unfold statusCount; split <;> decide)]
    rfl
  refine ⟨⟨?_, fun he => ?_⟩, ?_, ?_⟩
  · rintro ⟨x, hx⟩
    have hs := says_of_ok hx
    generalize hq : (0 :: le16 h ++ [e] : List UInt8) = q at hs
    cases hs
    rename_i st s h' y hst
    obtain ⟨-, hl⟩ := peel (a := 0 :: le16 h) (b := st :: le16 h') hq (by simp)
    cases hl
    cases y <;> decide
  · have : ∃ x, encryptionCode x = e := by
      have h3 : e = 0 ∨ e = 1 ∨ e = 2 := by
        have := UInt8.le_iff_toNat_le.mp he
        have h2 : (2 : UInt8).toNat = 2 := rfl
        rw [h2] at this
        rcases (by omega : e.toNat = 0 ∨ e.toNat = 1 ∨ e.toNat = 2) with h | h | h
        · exact .inl (UInt8.toNat_inj.mp h)
        · exact .inr (.inl (UInt8.toNat_inj.mp h))
        · exact .inr (.inr (UInt8.toNat_inj.mp h))
      rcases h3 with rfl | rfl | rfl
      · exact ⟨.off, rfl⟩
      · exact ⟨.on, rfl⟩
      · exact ⟨.onAesCcmForBrEdr, rfl⟩
    obtain ⟨x, rfl⟩ := this
    exact ⟨_, (C09_sound_and_complete c V _ _).mpr ⟨_, _, rfl, by simp, .encryptionChange h0⟩⟩
  · rintro ⟨x, hx⟩
    have hs := says_of_ok hx
    generalize hq : (0 :: le16 h ++ [reason] : List UInt8) = q at hs
    cases hs
    rename_i st s h' rs r hst hr
    obtain ⟨-, hl⟩ := peel (a := 0 :: le16 h) (b := st :: le16 h') hq (by simp)
    cases hl
    exact ⟨r, hr⟩
  · rintro ⟨r, hr⟩
    exact ⟨_, (C09_sound_and_complete c V _ _).mpr ⟨_, _, rfl, by simp, .disconnectionComplete h0 hr⟩⟩

/-- **C106**: once a packet has turned encryption off, or has ended the connection with a reason of the standard, the
application does not believe the connection encrypted until a later packet says that it is. -/
theorem C106_off (before after : List (List UInt8)) (h : UInt16) (p : List UInt8)
    (hp : p = frame 0x08 (0 :: le16 h ++ [0]) ∨
      ∃ r : UInt8, r.toNat < statusCount c ∧ p = frame 0x05 (0 :: le16 h ++ [r]))
    (ha : ∀ q ∈ after, ¬ Encrypts h q) :
    (((before ++ p :: after).map (Event.new c V)).foldl Ledger.noteOutcome {}).encrypted h.toNat = false := by
  have hu : Unencrypts h p := by
    rcases hp with rfl | ⟨r, -, rfl⟩
    · exact .change
    · exact .disconnection
  have hacc : Accepted c V p := by
    rcases hp with rfl | ⟨r, hr, rfl⟩
    · exact (C106_accepted h 0 0).1.mpr (by decide)
    · refine (C106_accepted h 0 r).2.mpr ?_
      have hl : r.toNat < (standardStatuses (VS := V.VStatus)).length := by
        have : (standardStatuses (VS := V.VStatus)).length = 0x45 := rfl
        rw [this]
        unfold statusCount at hr
        split at hr <;> omega
      refine ⟨(standardStatuses (VS := V.VStatus))[r.toNat], ?_⟩
      unfold StatusByte
      rw [if_pos hr]
      exact List.getElem?_eq_getElem hl
  rw [← Bool.not_eq_true, C106_exact]
  rintro ⟨b, q, a, heq, hq, he, hn⟩
  rcases List.append_eq_append_iff.mp heq with ⟨x, h1, h2⟩ | ⟨x, h1, h2⟩
  · cases x with
    | nil =>
      cases h2
      exact absurd ((encrypts_not_unencrypts hacc he) hu) id
    | cons y x =>
      cases h2
      exact ha q (by simp) he
  · cases x with
    | nil =>
      cases h2
      exact (encrypts_not_unencrypts hacc he) hu
    | cons y x =>
      cases h2
      exact hn p (by simp) hacc hu

example : ∀ q ∈ [frame 0x08 [0, 0x41, 0, 1], [0x08, 4, 0, 0x40]], ¬ Encrypts 0x40 q := by
  intro q hq he
  cases he with
  | change _ => simp [frame, show le16 0x40 = [0x40, 0] from rfl] at hq
  | connection _ => simp [frame, le16] at hq

/-- **C106**, the other side: if the reason is no known status code, the packet that ends the connection is rejected and
an application that ignores rejected packets goes on believing that the connection is encrypted. -/
theorem C106_stale (before : List (List UInt8)) (h : UInt16) (reason : UInt8)
    (hr : ¬ ∃ r, StatusByte c V reason r) (hb : LastEncrypts c V h before) :
    (((before ++ [frame 0x05 (0 :: le16 h ++ [reason])]).map (Event.new c V)).foldl Ledger.noteOutcome {}).encrypted
      h.toNat = true := by
  rw [C106_exact]
  obtain ⟨b, p, a, rfl, ha, he, hn⟩ := hb
  refine ⟨b, p, a ++ [frame 0x05 (0 :: le16 h ++ [reason])], by simp, ha, he, fun q hq hacc => ?_⟩
  rcases List.mem_append.mp hq with hq | hq
  · exact hn q hq hacc
  · cases List.mem_singleton.mp hq
    exact absurd ((C106_accepted h 0 reason).2.mp hacc) hr

example : ¬ ∃ r, StatusByte c demoVendor 0x50 r := by
  rintro ⟨r, hr⟩
  unfold StatusByte at hr
  rw [if_neg (by unfold statusCount; split <;> decide)] at hr
  obtain ⟨v, hv, -⟩ := hr
  exact absurd hv (by simp [demoVendor])

variable {k : Controller σ E} {stream : σ → List UInt8} {taken : σ → Nat}

/-- **C106** (`uart`). Any history with any bytes: the application believes a connection to be encrypted exactly if the
last accepted packet, of those that it has taken, that speaks of the encryption says so. -/
theorem C106_uart (hd : Delivers k stream taken) {s s' : σ}
    {rs : List (Res (Nb (UartError E V.VErr)) (UartPacket V))}
    (h : History stream taken (Uart.read c V k) s rs s') :
    ∃ packets : List (List UInt8), (∀ p ∈ packets, Framed p) ∧
      (stream s').drop (taken s) = uartBytes packets ++ pending stream taken s' ∧
      ∀ handle : UInt16, ((rs.filterMap uartOutcome).foldl Ledger.noteOutcome {}).encrypted handle.toNat = true ↔
        LastEncrypts c V handle packets := by
  obtain ⟨⟨packets, h0, h1, -, h2⟩, -⟩ := C03_history hd h
  exact ⟨packets, h0, h2, fun handle => by rw [h1]; exact C106_exact packets handle⟩

/-- **C106** (`event_link`). The same without packet indicators. -/
theorem C106_event_link (hd : Delivers k stream taken) {s s' : σ}
    {rs : List (Res (Nb (EventLinkError E V.VErr)) V.Ev)}
    (h : History stream taken (EventLink.read c V k) s rs s') :
    ∃ packets : List (List UInt8), (∀ p ∈ packets, Framed p) ∧
      (stream s').drop (taken s) = packets.flatten ++ pending stream taken s' ∧
      ∀ handle : UInt16, ((rs.filterMap linkOutcome).foldl Ledger.noteOutcome {}).encrypted handle.toNat = true ↔
        LastEncrypts c V handle packets := by
  obtain ⟨-, packets, h0, h1, -, h2⟩ := history (link_steps hd) h
  rw [wire_id] at h2
  exact ⟨packets, h0, h2, fun handle => by rw [h1]; exact C106_exact packets handle⟩

end Bt
