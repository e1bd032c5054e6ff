import Verif.Spec.Credits
import Verif.Spec.Secrecy

/-! # Specification: an application that sends secrets only on encrypted connections

A controller has LE connections, which become encrypted or end; it tells the host by events that take their time. The
application keeps the account of `Spec/Ledger.lean` and sends secrets on a connection only while the account says that it is
encrypted. The crate does not send data itself; this is about the events which it decodes. -/

namespace Spec

open Bt

/-- The connections of the controller and which are encrypted, the packets on their way to the host, the account of the
application, and the secrets that have been sent over the air: on which connection, and whether encrypted. -/
structure Secrets where
  isOpen : UInt16 → Bool := fun _ => false
  enc : UInt16 → Bool := fun _ => false
  way : List (List UInt8) := []
  ledger : Ledger := {}
  air : List (UInt16 × Bool) := []

/-- Disconnection Complete with status 0. -/
def endPacket (h : UInt16) (reason : UInt8) : List UInt8 := frame 0x05 (0 :: le16 h ++ [reason])

/-- What can happen. A secret for a connection that has ended is thrown away. `fresh`: the controller gives a handle to a new
connection only after the host has read that the old one has ended. `steady`: an encrypted connection is never unencrypted
again, as it is in LE. `known`: the reasons given for the end of a connection are statuses that the crate knows. -/
inductive Secrets.Step (c : Cfg) (V : Vendor) (fresh steady known : Prop) : Secrets → Secrets → Prop where
  | sends {s : Secrets} (h : UInt16) : s.ledger.encrypted h.toNat = true →
      Step c V fresh steady known s { s with air := if s.isOpen h then (h, s.enc h) :: s.air else s.air }
  | opens {s : Secrets} (h : UInt16) (rest : List UInt8) : s.isOpen h = false →
      (fresh → ∀ r, endPacket h r ∉ s.way) →
      Step c V fresh steady known s { s with
        isOpen := put s.isOpen h true, way := s.way ++ [frame 0x3E (0x01 :: 0 :: le16 h ++ rest)] }
  | encrypts {s : Secrets} (h : UInt16) (e : UInt8) : s.isOpen h = true → e = 1 ∨ e = 2 →
      Step c V fresh steady known s { s with
        enc := put s.enc h true, way := s.way ++ [frame 0x08 (0 :: le16 h ++ [e])] }
  | unencrypts {s : Secrets} (h : UInt16) : s.isOpen h = true → ¬ steady →
      Step c V fresh steady known s { s with
        enc := put s.enc h false, way := s.way ++ [frame 0x08 (0 :: le16 h ++ [0])] }
  | ends {s : Secrets} (h : UInt16) (reason : UInt8) : s.isOpen h = true → (known → ∃ r, StatusByte c V reason r) →
      Step c V fresh steady known s { s with
        isOpen := put s.isOpen h false, enc := put s.enc h false, way := s.way ++ [endPacket h reason] }
  | tells {s : Secrets} (packet : List UInt8) : (∀ h, ¬ Encrypts h packet ∧ ¬ Unencrypts h packet) →
      Step c V fresh steady known s { s with way := s.way ++ [packet] }
  | reads {s : Secrets} (packet : List UInt8) (rest : List (List UInt8)) : s.way = packet :: rest →
      Step c V fresh steady known s { s with way := rest, ledger := s.ledger.noteOutcome (Event.new c V packet) }

/-- The states that can be reached from the beginning. -/
inductive Secrets.Reached (c : Cfg) (V : Vendor) (fresh steady known : Prop) : Secrets → Prop where
  | start : Reached c V fresh steady known {}
  | step {s t : Secrets} : Reached c V fresh steady known s → Secrets.Step c V fresh steady known s t → Reached c V fresh steady known t

end Spec
