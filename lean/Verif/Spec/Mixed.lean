import Verif.Spec.Streams

/-! # Specification of a UART that carries other packets besides events

A controller on a UART also sends data packets (Vol 4 Part A 2). `uart::Hci::read` leaves them where they are and
returns `BadPacketType`. `readAny` is what an application can do then: take the packet itself, by a method of its own
on the same controller, and go on. -/

namespace Spec

open Bt

/-- A packet on the UART: an event, or the bytes of another packet, from the packet type on. -/
inductive Mixed where
  | event (packet : List UInt8)
  | other (bytes : List UInt8)

/-- The bytes on the UART. -/
def Mixed.bytes : Mixed → List UInt8
  | .event p => 0x04 :: p
  | .other q => q

/-- Events are framed as such, others by `Other`. -/
def Mixed.Good (Other : List UInt8 → Prop) : Mixed → Prop
  | .event p => Framed p
  | .other q => Other q

/-- A sequence of packets on the UART. -/
def mixedBytes (packets : List Mixed) : List UInt8 := (packets.map Mixed.bytes).flatten

/-- What the application is told of a packet: the outcome of decoding an event, or the bytes. -/
inductive News (V : Vendor) where
  | event (outcome : Res V.EvErr V.Ev)
  | other (bytes : List UInt8)

/-- An application that takes what is not an event by its own method `take`, which it gives the packet type. -/
def readAny {σ E : Type} {V : Vendor} (read : Ctl σ (Nb (UartError E V.VErr)) (UartPacket V))
    (take : UInt8 → Ctl σ (Nb E) (List UInt8)) :
    Ctl σ (Nb (UartError E V.VErr)) (UartPacket V ⊕ List UInt8) := fun s =>
  match read s with
  | (.ok p, s₁) => (.ok (.inl p), s₁)
  | (.panic, s₁) => (.panic, s₁)
  | (.err (.other (.badPacketType b)), s₁) =>
    match take b s₁ with
    | (.ok q, s₂) => (.ok (.inr q), s₂)
    | (.err .wouldBlock, s₂) => (.err .wouldBlock, s₂)
    | (.err (.other e), s₂) => (.err (.other (.comm e)), s₂)
    | (.panic, s₂) => (.panic, s₂)
  | (.err e, s₁) => (.err e, s₁)

/-- What a result of `readAny` tells of a packet; none if it tells that there was none. -/
def news {E : Type} {V : Vendor} : Res (Nb (UartError E V.VErr)) (UartPacket V ⊕ List UInt8) → Option (News V)
  | .ok (.inl (.event e)) => some (.event (.ok e))
  | .ok (.inr q) => some (.other q)
  | .err (.other (.ble e)) => some (.event (.err e))
  | .panic => some (.event .panic)
  | .err .wouldBlock | .err (.other (.comm _)) | .err (.other (.badPacketType _)) => none

/-- What is to be told of a packet. -/
def Mixed.news (c : Cfg) (V : Vendor) : Mixed → News V
  | .event p => .event (Event.new c V p)
  | .other q => .other q

/-- What the method of the application must do, when the pending bytes begin with a byte that is no event indicator:
take nothing and fail, or take one packet and return its bytes. -/
def TakesOther {σ E : Type} (stream : σ → List UInt8) (taken : σ → Nat) (take : UInt8 → Ctl σ (Nb E) (List UInt8))
    (Other : List UInt8 → Prop) : Prop :=
  ∀ b s r s', b ≠ 0x04 → (pending stream taken s)[0]? = some b → take b s = (r, s') →
    stream s <+: stream s' ∧
    ((taken s' = taken s ∧ ∃ e, r = .err e) ∨
     ∃ q, r = .ok q ∧ Other q ∧ taken s' = taken s + q.length ∧
       (stream s').drop (taken s) = q ++ (stream s').drop (taken s'))

/-- If a whole packet is pending the method takes it. -/
def TakesPromptly {σ E : Type} (stream : σ → List UInt8) (taken : σ → Nat)
    (take : UInt8 → Ctl σ (Nb E) (List UInt8)) (Other : List UInt8 → Prop) : Prop :=
  ∀ b s q tail, Other q → q[0]? = some b → pending stream taken s = q ++ tail →
    ∃ s', take b s = (.ok q, s') ∧ stream s <+: stream s' ∧ taken s' = taken s + q.length

/-! ## Data packets -/

/-- ACL data has a length of two bytes, synchronous data one of one byte, after the connection handle. Any other byte
stands for itself. -/
inductive DataPacket : List UInt8 → Prop
  | acl (h₀ h₁ lo hi : UInt8) (data : List UInt8) : data.length = lo.toNat + 256 * hi.toNat →
      DataPacket (0x02 :: h₀ :: h₁ :: lo :: hi :: data)
  | synchronous (h₀ h₁ n : UInt8) (data : List UInt8) : data.length = n.toNat →
      DataPacket (0x03 :: h₀ :: h₁ :: n :: data)
  | stray (b : UInt8) : b ≠ 0x02 → b ≠ 0x03 → b ≠ 0x04 → DataPacket [b]

/-- A method that takes data packets: it peeks at the length and reads the packet. -/
def takeData {σ E : Type} (k : Controller σ E) (b : UInt8) : Ctl σ (Nb E) (List UInt8) :=
  if b = 0x02 then do
    let lo ← k.peek 3
    let hi ← k.peek 4
    let got ← k.readInto (5 + (lo.toNat + 256 * hi.toNat))
    pure got.val
  else if b = 0x03 then do
    let n ← k.peek 3
    let got ← k.readInto (4 + n.toNat)
    pure got.val
  else do
    let got ← k.readInto 1
    pure got.val

end Spec
