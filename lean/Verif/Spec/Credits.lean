import Verif.Spec.Events

/-! # Specification: data packets and the buffers of the controller

A controller has `N` buffers for data packets (Vol 2 Part E 7.8.2) and tells the host with Number Of Completed Packets
(7.7.19) which of them have become free. The packets of a connection that has ended are thrown away without such an event
(4.3). The crate does not send data packets itself; this is about an application that does, and that keeps its account by
the events which the crate decodes. -/

namespace Spec

open Bt

/-- Another value for one handle. -/
def put {α : Type} (f : UInt16 → α) (h : UInt16) (x : α) : UInt16 → α := fun i => if i = h then x else f i

/-- The sum over all handles. -/
def total (f : UInt16 → Nat) : Nat := ((List.range 0x10000).map fun i => f (UInt16.ofNat i)).sum

/-- What is said about one handle in a list of handles and numbers. -/
def amount (xs : List (UInt16 × UInt16)) (h : UInt16) : Nat :=
  ((xs.filter fun x => x.1 = h).map fun x => x.2.toNat).sum

/-! ## What the controller tells -/

/-- LE Connection Complete with status 0, Number Of Completed Packets, Disconnection Complete with status 0, and packets of
other kinds. -/
inductive Notice where
  | opened (h : UInt16) (rest : List UInt8)
  | completed (xs : List (UInt16 × UInt16))
  | closed (h : UInt16) (reason : UInt8)
  | other (packet : List UInt8)

def Notice.bytes : Notice → List UInt8
  | .opened h rest => [0x3E, 19, 0x01, 0] ++ le16 h ++ rest
  | .completed xs => [0x13, UInt8.ofNat (4 * xs.length + 1), UInt8.ofNat xs.length] ++ pairsBytes xs
  | .closed h reason => [0x05, 4, 0] ++ le16 h ++ [reason]
  | .other packet => packet

/-- Packets of other kinds, by their first bytes. -/
def OtherKind (packet : List UInt8) : Prop :=
  packet.head? ≠ some 0x13 ∧ packet.head? ≠ some 0x05 ∧ (packet.head? = some 0x3E → packet[2]? ≠ some 0x01)

/-! ## The application -/

/-- The connections that it knows of, and for each the packets it has sent and not been told to be completed. -/
structure Credits where
  known : UInt16 → Bool := fun _ => false
  out : UInt16 → Nat := fun _ => 0

/-- What it notes when it has read an event. -/
def Credits.note {V : Vendor} (a : Credits) : Res V.EvErr V.Ev → Credits
  | .ok (.leConnectionComplete ⟨.success, h, _, _, _, _⟩) => { a with known := put a.known h.val true }
  | .ok (.numberOfCompletedPackets e) =>
    match e.iter (ε := Empty) with
    | .ok pairs => { a with out := pairs.foldl (fun f p =>
        put f p.connHandle.val (f p.connHandle.val - p.numCompletedPackets)) a.out }
    | _ => a
  | .ok (.disconnectionComplete ⟨.success, h, _⟩) => ⟨put a.known h.val false, put a.out h.val 0⟩
  | _ => a

/-! ## Both -/

/-- The packets in the buffers and the connections of the controller, the events on their way, and the account of the
application. -/
structure Traffic where
  buffer : UInt16 → Nat := fun _ => 0
  isOpen : UInt16 → Bool := fun _ => false
  way : List Notice := []
  account : Credits := {}

/-- What can happen. The application sends on a connection it knows of, if by its account there is a free buffer; if the
connection has ended meanwhile, the controller throws the packet away. The controller gives a handle to a new connection
only after the host has read that the old one has ended (`fresh`). -/
inductive Traffic.Step (c : Cfg) (V : Vendor) (N : Nat) (fresh : Prop) : Traffic → Traffic → Prop where
  | send {s : Traffic} (h : UInt16) : s.account.known h = true → total s.account.out < N →
      Step c V N fresh s { s with
        buffer := if s.isOpen h then put s.buffer h (s.buffer h + 1) else s.buffer
        account := ⟨s.account.known, put s.account.out h (s.account.out h + 1)⟩ }
  | opens {s : Traffic} (h : UInt16) (rest : List UInt8) : s.isOpen h = false →
      (fresh → ∀ r, .closed h r ∉ s.way) →
      Step c V N fresh s { s with isOpen := put s.isOpen h true, way := s.way ++ [.opened h rest] }
  | completes {s : Traffic} (xs : List (UInt16 × UInt16)) : xs.length ≤ 63 → (∀ h, amount xs h ≤ s.buffer h) →
      Step c V N fresh s { s with buffer := fun h => s.buffer h - amount xs h, way := s.way ++ [.completed xs] }
  | closes {s : Traffic} (h : UInt16) (reason : UInt8) : s.isOpen h = true → (∃ r, StatusByte c V reason r) →
      Step c V N fresh s { s with
        buffer := put s.buffer h 0, isOpen := put s.isOpen h false, way := s.way ++ [.closed h reason] }
  | tells {s : Traffic} (packet : List UInt8) : OtherKind packet →
      Step c V N fresh s { s with way := s.way ++ [.other packet] }
  | reads {s : Traffic} (m : Notice) (rest : List Notice) : s.way = m :: rest →
      Step c V N fresh s { s with way := rest, account := s.account.note (Event.new c V m.bytes) }

/-- The states that can be reached from the beginning. -/
inductive Traffic.Reached (c : Cfg) (V : Vendor) (N : Nat) (fresh : Prop) : Traffic → Prop where
  | start : Reached c V N fresh {}
  | step {s t : Traffic} : Reached c V N fresh s → Traffic.Step c V N fresh s t → Reached c V N fresh t

end Spec
