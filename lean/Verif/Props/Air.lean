import Verif.Spec.Air
import Verif.Props.Echo
import Verif.Props.Settings

/-! # C112: a device is heard as it asked to be, and can be called -/

namespace Bt

open Spec

variable {σ E VS ε : Type} (c : Cfg) (V : Vendor)

theorem both_some {α β : Type} {R : α → β → Prop} {x : Option α} {b : β} (h : Both R x (some b)) :
    ∃ a, x = some a ∧ R a b := by
  cases x with
  | none => exact h.elim
  | some a => exact ⟨a, rfl, h⟩

theorem addrTypeBytes_pub {x : BdAddrType} {b : BdAddr} (h : addrTypeBytes x = 0 :: b.val.val) : x = .pub b := by
  cases x with
  | pub a =>
    obtain ⟨⟨a, ha⟩⟩ := a
    obtain ⟨⟨b, hb⟩⟩ := b
    simp only [addrTypeBytes, List.cons.injEq, true_and] at h
    subst h
    rfl
  | random a => simp [addrTypeBytes] at h

theorem addrTypeBytes_random {x : BdAddrType} {b : BdAddr} (h : addrTypeBytes x = 1 :: b.val.val) :
    x = .random b := by
  cases x with
  | random a =>
    obtain ⟨⟨a, ha⟩⟩ := a
    obtain ⟨⟨b, hb⟩⟩ := b
    simp only [addrTypeBytes, List.cons.injEq, true_and] at h
    subst h
    rfl
  | pub a => simp [addrTypeBytes] at h

/-- A report that is sent means what was asked for. -/
theorem air_means {own : BdAddr} {a : Asked} {t : Told} (h : Agree a t) {r : RawReport} (hr : OnAir own t r)
    {x : LeAdvertisement} (hm : r.Means x) : HeardAsAsked own a x := by
  have key : ∀ p : AdvertisingTold, t.advertisingOn = true → t.advertising = some p → Sender own t p.ownAddress r →
      ∃ q, a.advertising = some q ∧ a.advertisingOn = true ∧ UsesAddress own a q.ownAddressType x.address ∧
        p.kind = (advTypeCode q.advertisingInterval.advertisingType).toNat := by
    intro p h1 h2 h3
    have hb := h.advertising
    rw [h2] at hb
    obtain ⟨q, hq, hs⟩ := both_some hb
    refine ⟨q, hq, h.advertisingOn.trans h1, ?_, hs.kind⟩
    have ho := hs.ownAddress
    have ha := hm.address
    have hra := h.randomAddress
    rcases h3 with ⟨h4, h5, h6⟩ | ⟨h4, h5, h6⟩
    · rw [h5, h6] at ha
      have := addrTypeBytes_pub ha
      cases hw : q.ownAddressType <;> rw [hw] at ho <;> simp [ownAddressCode] at ho <;>
        first | exact this | (exfalso; omega)
    · rw [h6] at hra
      obtain ⟨b, hb1, hb2⟩ := both_some hra
      rw [h5, hb2] at ha
      have := addrTypeBytes_random ha
      cases hw : q.ownAddressType <;> rw [hw] at ho <;> simp [ownAddressCode] at ho <;>
        first | exact ⟨b, hb1, this⟩ | (exfalso; omega)
  have he := hm.eventType
  have hd := hm.data
  cases hr with
  | undirected p h1 h2 h3 h4 h5 h6 =>
    obtain ⟨q, g1, g2, g3, g4⟩ := key p h1 h2 h3
    refine ⟨g2, q, g1, g3, ?_⟩
    rw [← he, g4] at h5
    rw [hd, h6, ← h.advertisingData]
    rw [g4] at h4
    revert h4 h5
    cases q.advertisingInterval.advertisingType <;> cases x.eventType <;>
      simp [advTypeCode, advEventCode, Offered]
  | directed p h1 h2 h3 h4 h5 h6 =>
    obtain ⟨q, g1, g2, g3, g4⟩ := key p h1 h2 h3
    refine ⟨g2, q, g1, g3, ?_⟩
    rw [h5] at he
    rw [hd, h6]
    rw [g4] at h4
    revert h4 he
    cases q.advertisingInterval.advertisingType <;> cases x.eventType <;>
      simp [advTypeCode, advEventCode, Offered]
  | response p h1 h2 h3 h4 h5 h6 =>
    obtain ⟨q, g1, g2, g3, g4⟩ := key p h1 h2 h3
    refine ⟨g2, q, g1, g3, ?_⟩
    rw [h5] at he
    rw [hd, h6, ← h.scanResponse]
    rw [g4] at h4
    revert h4 he
    cases q.advertisingInterval.advertisingType <;> cases x.eventType <;>
      simp [advTypeCode, advEventCode, Offered]

/-- **C112.** A controller is set as its application asked (`Agree`, which C87 proves of every session), and another
controller reports a packet of it, perhaps among others. The application at the scanner is given, in the place of this
report, the kind of advertisement, the address and the data that the application at the advertiser asked for. -/
theorem C112_heard {own : BdAddr} {a : Asked} {t : Told} (h : Agree a t) (n : UInt8) (rs : List RawReport)
    (hc : ∀ r ∈ rs, r.Conforms c) (h1 : ∀ r ∈ rs, r.addressType ≤ 1) (hl : (rawBytes rs).length ≤ 253) {i : Nat}
    {r : RawReport} (hi : rs[i]? = some r) (hr : OnAir own t r) :
    ∃ e heard x, Event.new c V (frame 0x3E (0x02 :: n :: rawBytes rs)) = .ok (.leAdvertisingReport e) ∧
      e.iter (ε := ε) = .ok heard ∧ heard[i]? = some x ∧ HeardAsAsked own a x := by
  obtain ⟨e, heard, g1, g2, g3, g4⟩ := (C81_delivered_partial c V (ε := ε) n rs hc hl).mpr h1
  obtain ⟨hi1, hi2⟩ := List.getElem?_eq_some_iff.mp hi
  refine ⟨e, heard, heard[i], g1, g2, List.getElem?_eq_getElem (by omega), air_means h hr (g4 (r, heard[i]) ?_)⟩
  rw [← hi2, List.mem_iff_getElem]
  exact ⟨i, by simp; omega, by simp⟩

/-- **C112.** What is asked for leaves no choice: whatever is heard of the advertiser comes from one address, packets of one
kind carry the same data, and a packet that answers no scan is of one kind. -/
theorem C112_determined {own : BdAddr} {a : Asked} {x y : LeAdvertisement} (hx : HeardAsAsked own a x)
    (hy : HeardAsAsked own a y) : x.address = y.address ∧ (x.eventType = y.eventType → x.data = y.data) ∧
      (x.eventType ≠ .scanResponse → y.eventType ≠ .scanResponse → x.eventType = y.eventType) := by
  obtain ⟨-, p, hp, hax, hox⟩ := hx
  obtain ⟨-, q, hq, hay, hoy⟩ := hy
  rw [hp] at hq
  cases hq
  refine ⟨?_, ?_⟩
  · cases hw : p.ownAddressType <;> rw [hw] at hax hay
    · exact hax.trans hay.symm
    · obtain ⟨b, h1, h2⟩ := hax
      obtain ⟨d, h3, h4⟩ := hay
      rw [h1] at h3
      cases h3
      exact h2.trans h4.symm
    · exact hax.trans hay.symm
    · obtain ⟨b, h1, h2⟩ := hax
      obtain ⟨d, h3, h4⟩ := hay
      rw [h1] at h3
      cases h3
      exact h2.trans h4.symm
  · generalize x.eventType = k at hox ⊢
    generalize y.eventType = l at hoy ⊢
    cases hw : p.advertisingInterval.advertisingType <;> rw [hw] at hox hoy <;> simp only [Offered] at hox hoy
    case connectableUndirected | scannableUndirected =>
      rcases hox with ⟨rfl, h1⟩ | ⟨rfl, h1⟩ <;> rcases hoy with ⟨rfl, h2⟩ | ⟨rfl, h2⟩ <;> simp [h1, h2]
    all_goals
      obtain ⟨rfl, h1⟩ := hox
      obtain ⟨rfl, h2⟩ := hoy
      simp [h1, h2]

/-- An advertiser that has asked for data and another scan response: both are heard. -/
example :
    let b : BdAddr := ⟨⟨[1, 2, 3, 4, 5, 0xC6], rfl⟩⟩
    let p : AdvertisingParameters := ⟨⟨⟨20000000, by decide⟩, ⟨30000000, by decide⟩, .connectableUndirected⟩,
      .random, .pub b, 7, .allowConnectionAndScan⟩
    let a : Asked := {
      randomAddress := some b
      advertising := some p
      advertisingData := some [2, 1, 6]
      scanResponse := some [2, 0x0A, 0]
      advertisingOn := true }
    HeardAsAsked ⟨⟨[9, 9, 9, 9, 9, 9], rfl⟩⟩ a ⟨.advertisement, .random b, [2, 1, 6], some (-64)⟩ ∧
      HeardAsAsked ⟨⟨[9, 9, 9, 9, 9, 9], rfl⟩⟩ a ⟨.scanResponse, .random b, [2, 0x0A, 0], some (-60)⟩ :=
  ⟨⟨rfl, _, rfl, ⟨_, rfl, rfl⟩, .inl ⟨rfl, rfl⟩⟩, ⟨rfl, _, rfl, ⟨_, rfl, rfl⟩, .inr ⟨rfl, rfl⟩⟩⟩

/-- **C112.** What was heard can be put on the white list: the list of the controller of the scanner, set as its
application asked, lets the packets of the advertiser through exactly if the application has put there what it heard. -/
theorem C112_white_list {a : Asked} {t : Told} (h : Agree a t) {r : RawReport} {x : LeAdvertisement}
    (hm : r.Means x) :
    t.whiteList (r.addressType.toNat, r.address.val) = true ↔ a.whiteList (.device x.address) = true := by
  have ha := hm.address
  rw [h.whiteList]
  constructor
  · rintro ⟨p, hp, hl⟩
    cases p with
    | anonymous =>
      have := congrArg (fun e => e.2.length) hl
      simp [r.address.len] at this
    | device d =>
      have : d = x.address := by
        cases d with
        | pub b =>
          obtain ⟨h1, h2⟩ := hl
          simp only at h1 h2
          have h3 : r.addressType = 0 := UInt8.toNat_inj.mp h1
          rw [h3, h2] at ha
          exact (addrTypeBytes_pub ha).symm
        | random b =>
          obtain ⟨h1, h2⟩ := hl
          simp only at h1 h2
          have h3 : r.addressType = 1 := UInt8.toNat_inj.mp h1
          rw [h3, h2] at ha
          exact (addrTypeBytes_random ha).symm
      rw [← this]
      exact hp
  · intro hp
    refine ⟨_, hp, ?_⟩
    cases hx : x.address with
    | pub b =>
      rw [hx] at ha
      simp only [addrTypeBytes, List.cons.injEq] at ha
      exact ⟨by rw [← ha.1]; rfl, ha.2.symm⟩
    | random b =>
      rw [hx] at ha
      simp only [addrTypeBytes, List.cons.injEq] at ha
      exact ⟨by rw [← ha.1]; rfl, ha.2.symm⟩

example : RawReport.Means ⟨0, 1, ⟨[1, 2, 3, 4, 5, 0xC6], rfl⟩, [2, 1, 6], 0xC0⟩
    ⟨.advertisement, .random ⟨⟨[1, 2, 3, 4, 5, 0xC6], rfl⟩⟩, [2, 1, 6], some (-64)⟩ :=
  ⟨rfl, rfl, rfl, by decide⟩

/-- **C112.** From the calls at one host to the calls at the other. The commands that returned Ok, and that the controller
carried out, decide what is heard; and a command of the scanner that names what it heard names the sender of the packet.
Configurations, vendors, links and controllers of the two hosts are independent. -/
theorem C112_session {σ' E' : Type} (c' : Cfg) (l l' : Link) (k : Controller σ E) (got : σ → List (List UInt8 × List UInt8))
    (hk : TakesPackets k got) (vinto : VS → UInt8) (cmds : List (Command VS))
    (hc : ∀ cmd ∈ cmds, cmd.Constructible c') (s : σ) (verdicts : List Bool) (own : BdAddr) :
    let run := runAll (cmds.map (·.exec (linkHeader l) k vinto)) s
    ∃ new, got run.2 = got s ++ new ∧
      ∀ r, OnAir own ((favoured verdicts new).foldl (fun t p => t.hear (opcodeIn l p.1) p.2) {}) r →
      ∀ (n : UInt8) (rs : List RawReport), (∀ r ∈ rs, r.Conforms c) → (∀ r ∈ rs, r.addressType ≤ 1) →
      (rawBytes rs).length ≤ 253 → ∀ i : Nat, rs[i]? = some r →
      ∃ e heard x, Event.new c V (frame 0x3E (0x02 :: n :: rawBytes rs)) = .ok (.leAdvertisingReport e) ∧
        e.iter (ε := ε) = .ok heard ∧ heard[i]? = some x ∧
        HeardAsAsked own ((favoured verdicts (returnedOk cmds run.1)).foldl Asked.say {}) x ∧
        ∀ cmd : Command V.VStatus, Names x.address cmd → cmd.Constructible c → cmdReject (E := E') cmd = none →
          ∀ (k' : Controller σ' E') (vinto' : V.VStatus → UInt8) (s' : σ'),
          ∃ qs, (cmd.exec (linkHeader l') (recording k') vinto' (s', [])).2.2 =
              [.write (headerBytes l' (cmdOpcode cmd) qs.length) qs] ∧
            bytesAt qs (deviceOffset (cmdOpcode cmd)) 7 = r.addressType :: r.address.val := by
  intro run
  obtain ⟨new, h1, h2⟩ := C87_packets c' l k got hk vinto cmds hc s verdicts {} {} agree_empty
  refine ⟨new, h1, fun r hr n rs g1 g2 g3 i hi => ?_⟩
  obtain ⟨e, heard, x, e1, e2, e3, e4⟩ := C112_heard (ε := ε) c V h2 n rs g1 g2 g3 hi hr
  obtain ⟨x', f1, f2⟩ := C84_report (σ := σ') (E := E') c V n rs g1 e1 e2 hi
  rw [e3] at f1
  cases f1
  exact ⟨e, heard, x, e1, e2, e3, e4, fun cmd hn hb ha k' vinto' s' => f2 cmd hn hb ha l' k' vinto' s'⟩

/-- An advertiser with a random address and three bytes of data: the packets its controller takes, what is on the air, and
that it is a report of a conforming controller. -/
example : OnAir ⟨⟨[9, 9, 9, 9, 9, 9], rfl⟩⟩
      ([(0x2005, [1, 2, 3, 4, 5, 0xC6]), (0x2006, [0xA0, 0, 0xA0, 0, 0, 1, 0, 0, 0, 0, 0, 0, 0, 7, 0]),
        (0x2008, 3 :: 2 :: 1 :: 6 :: zeroes 28), (0x200A, [1])].foldl
          (fun (t : Told) (p : UInt16 × List UInt8) => t.hear p.1 p.2) {})
      ⟨0, 1, ⟨[1, 2, 3, 4, 5, 0xC6], rfl⟩, [2, 1, 6], 0xC0⟩ ∧
    RawReport.Conforms ⟨false, false⟩ ⟨0, 1, ⟨[1, 2, 3, 4, 5, 0xC6], rfl⟩, [2, 1, 6], 0xC0⟩ :=
  ⟨.undirected ⟨160, 160, 0, 1, 0, [0, 0, 0, 0, 0, 0], 7, 0⟩ rfl rfl (.inr ⟨.inl rfl, rfl, rfl⟩) (by decide) rfl rfl,
    ⟨by decide, .inl (by decide), by decide, .inl (by decide)⟩⟩

end Bt
