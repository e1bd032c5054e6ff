import Verif.Spec.Pair
import Verif.Props.Air
import Verif.Props.Negotiated

/-! # C113: the two ends of a connection are told the same of it -/

namespace Bt

open Spec

variable {σ E : Type} (c c' : Cfg) (V V' : Vendor)

theorem made_event (h : UInt16) (role : ConnectionRole) (peer : BdAddrType) (a l t : UInt16)
    (clock : CentralClockAccuracy) (i : FixedConnectionInterval) :
    Event.new c V (frame 0x3E (0x01 :: 0 :: le16 h ++ roleCode role :: addrTypeBytes peer ++ le16 a ++ le16 l ++
      le16 t ++ [clockCode clock])) = .ok (.leConnectionComplete ⟨.success, ⟨h⟩, role, peer, i, clock⟩) ↔
      IntervalFields a l t i := by
  constructor
  · intro hn
    obtain ⟨code, q, hf, -, hsays⟩ := (C09_sound_and_complete c V _ _).mp hn
    obtain ⟨rfl, hq⟩ := frame_inj hf
    generalize hr : (0x01 :: 0 :: le16 h ++ roleCode role :: addrTypeBytes peer ++ le16 a ++ le16 l ++ le16 t ++
      [clockCode clock]) = r at hq
    subst hq
    cases hsays with
    | leConnectionComplete _ hif =>
      obtain ⟨ea, el, et⟩ := create_fields hr
      subst ea el et
      exact hif
  · intro hif
    refine (C09_sound_and_complete c V _ _).mpr ⟨_, _, rfl, ?_, .leConnectionComplete (status_zero c V) hif⟩
    cases peer <;> simp [addrTypeBytes, Arr.len]

theorem rawAddress_exists {k : UInt8} (hk : k ≤ 1) (b : Arr 6) : ∃ x, addrTypeBytes x = k :: b.val := by
  have : k.toNat ≤ 1 := hk
  rcases Nat.lt_or_ge k.toNat 1 with h | h
  · have : k = 0 := UInt8.toNat_inj.mp (by simp; omega)
    exact ⟨.pub ⟨b⟩, by rw [this]; rfl⟩
  · have : k = 1 := UInt8.toNat_inj.mp (by simp; omega)
    exact ⟨.random ⟨b⟩, by rw [this]; rfl⟩

theorem arr6_inj {a b : BdAddr} (h : a.val.val = b.val.val) : a = b := by
  obtain ⟨⟨a, ha⟩⟩ := a
  obtain ⟨⟨b, hb⟩⟩ := b
  cases h
  rfl

/-- The places of whom to call and of the own address in LE Create Connection. -/
theorem create_layout (p : ConnectionParameters) :
    byteAt (cmdParams (VS := Empty) (.leCreateConnection p)) 12 = (ownAddressCode p.ownAddressType).toNat ∧
    (p.initiatorFilterPolicy = .whiteList → byteAt (cmdParams (VS := Empty) (.leCreateConnection p)) 4 = 1) ∧
    (p.initiatorFilterPolicy = .useAddress → byteAt (cmdParams (VS := Empty) (.leCreateConnection p)) 4 = 0 ∧
      bytesAt (cmdParams (VS := Empty) (.leCreateConnection p)) 5 7 = peerBytes p.peerAddress) := by
  have at_ : ∀ (x : List UInt8) (y : UInt8) (z : List UInt8) (i : Nat), x.length = i →
      byteAt (x ++ (y :: z)) i = y.toNat := by
    intro x y z i hi
    subst hi
    simp [byteAt]
  have hw : (scanWindowBytes p.scanWindow).length = 4 := by simp [scanWindowBytes]
  have hq : (peerBytes p.peerAddress).length = 7 := by cases p.peerAddress <;> simp [peerBytes, Arr.len]
  cases hf : p.initiatorFilterPolicy with
  | whiteList =>
    refine ⟨?_, fun _ => ?_, fun h => by cases h⟩
    · have := at_ (scanWindowBytes p.scanWindow ++ 1 :: zeroes 7) (ownAddressCode p.ownAddressType)
        (connIntervalBytes p.connInterval ++ connLengthBytes p.expectedConnectionLength) 12 (by simp [hw, zeroes])
      simpa [cmdParams, hf] using this
    · have := at_ (scanWindowBytes p.scanWindow) 1 (zeroes 7 ++ ownAddressCode p.ownAddressType ::
        (connIntervalBytes p.connInterval ++ connLengthBytes p.expectedConnectionLength)) 4 hw
      simpa [cmdParams, hf] using this
  | useAddress =>
    refine ⟨?_, fun h => (by cases h), fun _ => ⟨?_, ?_⟩⟩
    · have := at_ (scanWindowBytes p.scanWindow ++ 0 :: peerBytes p.peerAddress) (ownAddressCode p.ownAddressType)
        (connIntervalBytes p.connInterval ++ connLengthBytes p.expectedConnectionLength) 12 (by simp [hw, hq])
      simpa [cmdParams, hf] using this
    · have := at_ (scanWindowBytes p.scanWindow) 0 (peerBytes p.peerAddress ++ ownAddressCode p.ownAddressType ::
        (connIntervalBytes p.connInterval ++ connLengthBytes p.expectedConnectionLength)) 4 hw
      simpa [cmdParams, hf] using this
    · have := bytesAt_append (scanWindowBytes p.scanWindow ++ [0]) (peerBytes p.peerAddress)
        (ownAddressCode p.ownAddressType :: (connIntervalBytes p.connInterval ++
          connLengthBytes p.expectedConnectionLength)) 5 7 (by simp [hw]) hq
      simpa [cmdParams, hf] using this

/-- **C113.** An application calls a device, by its address or by the white list, and a connection is made. The two hosts are
told of it alike: the one is told of it exactly if the other is, with the same interval, latency and timeout. The caller is
the central and is told whom it asked to call, the other end is the peripheral and is told the address that the caller asked
to use. Both are told of it, with parameters as asked for up to the rounding of C79, if the parameters are legal when written
and the timeout is at least 110 ms. -/
theorem C113_made {own : BdAddr} {a : Asked} {t : Told} (hat : Agree a t) (l : Link) (k : Controller σ E) (s : σ)
    (p : ConnectionParameters) (hw : BuiltScanWindow p.scanWindow) (hx : Built p.connInterval)
    (hy : BuiltLength p.expectedConnectionLength) :
    ∃ ps, (Hci.leCreateConnection (linkHeader l) (recording k) p (s, [])).2.2 =
        [.write (headerBytes l 0x200D 25) ps] ∧
      ∀ n, Makes own t ps n → ∃ called caller, Calls a p called ∧ UsesAddress own a p.ownAddressType caller ∧
        ∀ h h' : UInt16,
        (∀ i, Event.new c V (n.atCaller h) =
            .ok (.leConnectionComplete ⟨.success, ⟨h⟩, .central, called, i, .ppm500⟩) ↔
          Event.new c' V' (n.atCalled h') =
            .ok (.leConnectionComplete ⟨.success, ⟨h'⟩, .peripheral, caller, i, n.clock⟩)) ∧
        (LegalWhenWritten p.connInterval → 110 * ms ≤ p.connInterval.supervisionTimeout.ns →
          ∃ i, NearlyAsAsked p.connInterval i ∧ Event.new c V (n.atCaller h) =
            .ok (.leConnectionComplete ⟨.success, ⟨h⟩, .central, called, i, .ppm500⟩)) := by
  obtain ⟨ps, g1, g2, g3⟩ := C79_create_partial c V l k s p hw hx hy
  refine ⟨ps, g1, fun n hn => ?_⟩
  have hps : ps = cmdParams (VS := Empty) (.leCreateConnection p) := by
    have ht := C39_trace (VS := Empty) c l k Empty.elim (.leCreateConnection p) ⟨hw, hx, hy⟩ rfl s []
    have := g1.symm.trans ht
    simp at this
    exact this.2
  obtain ⟨l1, l2, l3⟩ := create_layout p
  obtain ⟨called, hcd⟩ := rawAddress_exists hn.kinds n.called
  have hck : n.callerType ≤ 1 := by
    rcases hn.caller with ⟨-, h, -⟩ | ⟨-, h, -⟩ <;> rw [h] <;> decide
  obtain ⟨caller, hcr⟩ := rawAddress_exists hck n.caller
  have e1 : ∀ h, n.atCaller h = frame 0x3E (0x01 :: 0 :: le16 h ++ roleCode .central :: addrTypeBytes called ++
      le16 n.interval ++ le16 n.latency ++ le16 n.timeout ++ [clockCode .ppm500]) := by
    intro h
    rw [hcd]
    simp [Made.atCaller, frame, roleCode, clockCode, Arr.len]
  have e2 : ∀ h, n.atCalled h = frame 0x3E (0x01 :: 0 :: le16 h ++ roleCode .peripheral :: addrTypeBytes caller ++
      le16 n.interval ++ le16 n.latency ++ le16 n.timeout ++ [clockCode n.clock]) := by
    intro h
    rw [hcr]
    simp [Made.atCalled, frame, roleCode, Arr.len]
  refine ⟨called, caller, ?_, ?_, fun h h' => ⟨fun i => ?_, fun hl h110 => ?_⟩⟩
  · unfold Calls
    cases hf : p.initiatorFilterPolicy with
    | whiteList =>
      rcases hn.called with ⟨h0, -⟩ | ⟨-, h1⟩
      · rw [hps, l2 hf] at h0
        cases h0
      · exact (C112_white_list hat (r := ⟨advEventCode .advertisement, n.calledType, n.called, [], 127⟩)
          (x := ⟨.advertisement, called, [], none⟩) ⟨rfl, hcd, rfl, rfl⟩).mp h1
    | useAddress =>
      rcases hn.called with ⟨-, h1⟩ | ⟨h1, -⟩
      · rw [hps, (l3 hf).2, ← hcd] at h1
        revert h1
        cases p.peerAddress <;> cases called <;> simp [peerBytes, addrTypeBytes] <;>
          exact fun h => arr6_inj h
      · rw [hps, (l3 hf).1] at h1
        cases h1
  · have hra := hat.randomAddress
    have hcl := hn.caller
    rw [hps, l1] at hcl
    rcases hcl with ⟨h4, h5, h6⟩ | ⟨h4, h5, h6⟩
    · rw [h5, h6] at hcr
      have := addrTypeBytes_pub hcr
      cases hw : p.ownAddressType <;> rw [hw] at h4 <;> simp [ownAddressCode] at h4 <;> exact this
    · rw [h6] at hra
      obtain ⟨b, hb1, hb2⟩ := both_some hra
      rw [h5, hb2] at hcr
      have := addrTypeBytes_random hcr
      cases hw : p.ownAddressType <;> rw [hw] at h4 <;> simp [ownAddressCode] at h4 <;> exact ⟨b, hb1, this⟩
  · rw [e1, e2, made_event, made_event]
  · obtain ⟨i, hi⟩ := (g3 hl h110).1 _ _ _ 0 _ h .central called .ppm500 hn.parameters (status_zero c V)
    refine ⟨i, (g2 _ _ _ 0 h .central called .ppm500 _ hn.parameters hi).1, ?_⟩
    rw [e1]
    exact hi

/-- A call by address, from a controller that uses its random address. -/
example : Makes ⟨⟨[9, 9, 9, 9, 9, 9], rfl⟩⟩ ((Told.hear {} 0x2005 [1, 2, 3, 4, 5, 0xC6]))
    ([32, 0, 16, 0, 0, 0, 6, 5, 4, 3, 2, 1, 1, 8, 0, 16, 0, 0, 0, 100, 0, 16, 0, 32, 0])
    ⟨1, ⟨[1, 2, 3, 4, 5, 0xC6], rfl⟩, 0, ⟨[6, 5, 4, 3, 2, 1], rfl⟩, 12, 0, 100, .ppm50⟩ :=
  ⟨by decide, .inl ⟨by decide, by decide⟩, .inr ⟨.inl (by decide), rfl, rfl⟩,
    ⟨by decide, by decide, by decide, by decide⟩⟩

/-- The same if it is to use a private address instead, when there is one. -/
example : Makes ⟨⟨[9, 9, 9, 9, 9, 9], rfl⟩⟩ ((Told.hear {} 0x2005 [1, 2, 3, 4, 5, 0xC6]))
    ([32, 0, 16, 0, 0, 0, 6, 5, 4, 3, 2, 1, 3, 8, 0, 16, 0, 0, 0, 100, 0, 16, 0, 32, 0])
    ⟨1, ⟨[1, 2, 3, 4, 5, 0xC6], rfl⟩, 0, ⟨[6, 5, 4, 3, 2, 1], rfl⟩, 12, 0, 100, .ppm50⟩ :=
  ⟨by decide, .inl ⟨by decide, by decide⟩, .inr ⟨.inr (by decide), rfl, rfl⟩,
    ⟨by decide, by decide, by decide, by decide⟩⟩

/-- A call of a device on the white list, with a random address, from a controller that uses its public address. -/
example (own : UInt8) (ho : own = 0 ∨ own = 2) : Makes ⟨⟨[9, 9, 9, 9, 9, 9], rfl⟩⟩
    ((Told.hear {} 0x2011 [1, 1, 2, 3, 4, 5, 0xC6]))
    ([32, 0, 16, 0, 1, 0, 0, 0, 0, 0, 0, 0, own, 8, 0, 16, 0, 0, 0, 100, 0, 16, 0, 32, 0])
    ⟨0, ⟨[9, 9, 9, 9, 9, 9], rfl⟩, 1, ⟨[1, 2, 3, 4, 5, 0xC6], rfl⟩, 12, 0, 100, .ppm50⟩ := by
  rcases ho with rfl | rfl
  · exact ⟨by decide, .inr ⟨by decide, by decide⟩, .inl ⟨.inl (by decide), rfl, rfl⟩,
      ⟨by decide, by decide, by decide, by decide⟩⟩
  · exact ⟨by decide, .inr ⟨by decide, by decide⟩, .inl ⟨.inr (by decide), rfl, rfl⟩,
      ⟨by decide, by decide, by decide, by decide⟩⟩

/-- **C113.** New parameters of a connection: the one host is told of them exactly if the other is, and the same. -/
theorem C113_updated (h h' a l t : UInt16) (i : FixedConnectionInterval) :
    Event.new c V (updated h a l t) = .ok (.leConnectionUpdateComplete ⟨.success, ⟨h⟩, i⟩) ↔
      Event.new c' V' (updated h' a l t) = .ok (.leConnectionUpdateComplete ⟨.success, ⟨h'⟩, i⟩) := by
  have key : ∀ (c : Cfg) (V : Vendor) (h : UInt16),
      Event.new c V (updated h a l t) = .ok (.leConnectionUpdateComplete ⟨.success, ⟨h⟩, i⟩) ↔
        IntervalFields a l t i := by
    intro c V h
    have e : updated h a l t = frame 0x3E (0x03 :: 0 :: le16 h ++ le16 a ++ le16 l ++ le16 t) := by
      simp [updated, frame]
    rw [e]
    constructor
    · intro hn
      obtain ⟨code, q, hf, -, hsays⟩ := (C09_sound_and_complete c V _ _).mp hn
      obtain ⟨rfl, hq⟩ := frame_inj hf
      generalize hr : (0x03 :: 0 :: le16 h ++ le16 a ++ le16 l ++ le16 t) = r at hq
      subst hq
      cases hsays with
      | leConnectionUpdateComplete _ hif =>
        obtain ⟨ea, el, et⟩ := update_fields hr
        subst ea el et
        exact hif
    · intro hif
      exact (C09_sound_and_complete c V _ _).mpr ⟨_, _, rfl, by simp, .leConnectionUpdateComplete (status_zero c V) hif⟩
  rw [key, key]

end Bt
