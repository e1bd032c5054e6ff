import Verif.Spec.StandardEvents

/-! # Specification: what a host keeps account of

A host has to know which connections there are and with which parameters, whether they are encrypted, how many
of its data packets have left the controller's buffers, and how many commands it may send. All of this is
announced by events. `Ledger.send` is the account of the controller, from the fields on the wire (Bluetooth
specification, Vol 2, Part E, 7.7). `Ledger.note` is the account of an application, from the events it is
handed. -/

namespace Spec

open Bt

/-- An entry of the table of connections. Times are in nanoseconds. -/
inductive Connection where
  | classic (peer : List UInt8) (acl : Bool)
  | le (central : Bool) (peer : List UInt8) (randomAddress : Bool) (interval latency timeout : Nat)
  deriving DecidableEq

/-- The parameters of an LE connection have changed. -/
def Connection.update (interval latency timeout : Nat) : Connection → Connection
  | le central peer random _ _ _ => le central peer random interval latency timeout
  | x => x

/-- The account: the connections, which are encrypted, the data packets that were sent since the connection was
made, the maximum lengths and times of data packets (sent and received), and the commands that are allowed. -/
structure Ledger where
  links : Nat → Option Connection := fun _ => none
  encrypted : Nat → Bool := fun _ => false
  completed : Nat → Nat := fun _ => 0
  lengths : Nat → Option (Nat × Nat × Nat × Nat) := fun _ => none
  allowed : Nat := 1

/-- `f` with another value at `h`. -/
def upd {α : Type} (f : Nat → α) (h : Nat) (x : α) : Nat → α := fun i => if i = h then x else f i

def Ledger.begin (L : Ledger) (h : Nat) (x : Connection) (encrypted : Bool) : Ledger :=
  { L with
    links := upd L.links h (some x), encrypted := upd L.encrypted h encrypted,
    completed := upd L.completed h 0, lengths := upd L.lengths h none }

def Ledger.finish (L : Ledger) (h : Nat) : Ledger :=
  { L with
    links := upd L.links h none, encrypted := upd L.encrypted h false,
    completed := upd L.completed h 0, lengths := upd L.lengths h none }

def Ledger.change (L : Ledger) (h : Nat) (interval latency timeout : Nat) : Ledger :=
  { L with links := upd L.links h ((L.links h).map (·.update interval latency timeout)) }

def Ledger.complete (L : Ledger) (xs : List (Nat × Nat)) : Ledger :=
  { L with completed := xs.foldl (fun f x => upd f x.1 (f x.1 + x.2)) L.completed }

/-- The controller sends an event. Unsuccessful attempts change nothing. -/
def Ledger.send (L : Ledger) : StdEvent → Ledger
  | .connection st h a lt enc =>
    if st = 0 then L.begin h.toNat (.classic a.val (decide (lt = 1))) (decide (enc ≠ 0)) else L
  | .disconnection st h _ => if st = 0 then L.finish h.toNat else L
  | .encryptionChange st h e =>
    if st = 0 then { L with encrypted := upd L.encrypted h.toNat (decide (e ≠ 0)) } else L
  | .commandComplete n _ | .noCommandComplete n | .commandStatus _ n _ => { L with allowed := n.toNat }
  | .completedPackets xs => L.complete (xs.map fun x => (x.1.toNat, x.2.toNat))
  | .leConnection st h role pt p a l t _ =>
    if st = 0 then L.begin h.toNat (.le (decide (role = 0)) p.val (decide (pt = 1))
      (1250 * us * a.toNat) l.toNat (10 * ms * t.toNat)) false else L
  | .leConnectionUpdate st h a l t =>
    if st = 0 then L.change h.toNat (1250 * us * a.toNat) l.toNat (10 * ms * t.toNat) else L
  | .leDataLength h a b d e =>
    { L with lengths := upd L.lengths h.toNat (some (a.toNat, b.toNat, d.toNat, e.toNat)) }
  | _ => L

/-- The six bytes of an address, and whether it is random. -/
def peerOf : BdAddrType → List UInt8 × Bool
  | .pub a => (a.val.val, false)
  | .random a => (a.val.val, true)

/-- The status is Success. -/
def succeeded {VS : Type} : Status VS → Bool
  | .success => true
  | _ => false

/-- The application is handed an event. -/
def Ledger.note {VS VR VEv : Type} (L : Ledger) : Event VS VR VEv → Ledger
  | .connectionComplete e =>
    if succeeded e.status then
      L.begin e.connHandle.val.toNat (.classic e.bdAddr.val.val (decide (e.linkType = .acl))) e.encryptionEnabled
    else L
  | .disconnectionComplete e => if succeeded e.status then L.finish e.connHandle.val.toNat else L
  | .encryptionChange e =>
    if succeeded e.status then
      { L with encrypted := upd L.encrypted e.connHandle.val.toNat (decide (e.encryption ≠ .off)) }
    else L
  | .commandComplete e => { L with allowed := e.numHciCommandPackets.toNat }
  | .commandStatus e => { L with allowed := e.numHciCommandPackets.toNat }
  | .numberOfCompletedPackets e =>
    match e.iter (ε := Empty) with
    | .ok ps => L.complete (ps.map fun p => (p.connHandle.val.toNat, p.numCompletedPackets))
    | _ => L
  | .leConnectionComplete e =>
    if succeeded e.status then
      L.begin e.connHandle.val.toNat (.le (decide (e.role = .central)) (peerOf e.peerBdAddr).1
        (peerOf e.peerBdAddr).2 e.connInterval.interval.ns e.connInterval.connLatency.toNat
        e.connInterval.supervisionTimeout.ns) false
    else L
  | .leConnectionUpdateComplete e =>
    if succeeded e.status then
      L.change e.connHandle.val.toNat e.connInterval.interval.ns e.connInterval.connLatency.toNat
        e.connInterval.supervisionTimeout.ns
    else L
  | .leDataLengthChangeEvent e =>
    { L with
      lengths := upd L.lengths e.connHandle.val.toNat
        (some (e.maxTxOctets.toNat, e.maxTxTime.toNat, e.maxRxOctets.toNat, e.maxRxTime.toNat)) }
  | _ => L

/-- A rejected packet changes nothing in the account of the application. -/
def Ledger.noteOutcome {VS VR VEv ε : Type} (L : Ledger) : Res ε (Event VS VR VEv) → Ledger
  | .ok e => L.note e
  | _ => L

/-- The events that the application misses in its account: a connection with a supervision timeout of 100 ms,
a change of a connection to such a timeout, and a reply to a failed command (it grants commands as every reply
does) whose remaining fields are not in range. -/
inductive StdEvent.Missed (c : Cfg) : StdEvent → Prop where
  | connection {h role pt p a l clock} : Missed c (.leConnection 0 h role pt p a l 10 clock)
  | update {h a l} : Missed c (.leConnectionUpdate 0 h a l 10)
  | reply {n r} : ¬ (StdEvent.commandComplete n r).InRange c → Missed c (.commandComplete n r)

end Spec
