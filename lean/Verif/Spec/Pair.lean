import Verif.Spec.Air
import Verif.Spec.Negotiated

/-! # Specification: a connection, as the two controllers make it and as the two hosts are told

LE Create Connection (Vol 2 Part E 7.8.12) and LE Connection Complete (7.7.65.1). Identity addresses are left out: the crate
can name them in the command, but has no command for the list that they need. -/

namespace Spec

open Bt

/-! ## The controllers -/

/-- A connection: the addresses and address types of its ends, its parameters, and the accuracy of the caller's clock. -/
structure Made where
  callerType : UInt8
  caller : Arr 6
  calledType : UInt8
  called : Arr 6
  interval : UInt16
  latency : UInt16
  timeout : UInt16
  clock : CentralClockAccuracy

/-- A connection that a controller with the public address `own`, which has been told `t`, makes when it carries out
LE Create Connection with the parameters `ps`. Whom it calls depends on the byte at 4: the device in the seven bytes after it
(0), or one on the white list (1). -/
structure Makes (own : BdAddr) (t : Told) (ps : List UInt8) (n : Made) : Prop where
  kinds : n.calledType ≤ 1
  called : byteAt ps 4 = 0 ∧ bytesAt ps 5 7 = n.calledType :: n.called.val ∨
    byteAt ps 4 = 1 ∧ t.whiteList (n.calledType.toNat, n.called.val) = true
  caller : (byteAt ps 12 = 0 ∨ byteAt ps 12 = 2) ∧ n.callerType = 0 ∧ n.caller.val = own.val.val ∨
    (byteAt ps 12 = 1 ∨ byteAt ps 12 = 3) ∧ n.callerType = 1 ∧ t.randomAddress = some n.caller.val
  parameters : Chosen ps 13 n.interval n.latency n.timeout

/-- LE Connection Complete at the end that called. It is not told the accuracy of its own clock. -/
def Made.atCaller (n : Made) (handle : UInt16) : List UInt8 :=
  [0x3E, 19, 0x01, 0] ++ le16 handle ++ [0, n.calledType] ++ n.called.val ++ le16 n.interval ++ le16 n.latency ++
    le16 n.timeout ++ [0]

/-- And at the end that was called. -/
def Made.atCalled (n : Made) (handle : UInt16) : List UInt8 :=
  [0x3E, 19, 0x01, 0] ++ le16 handle ++ [1, n.callerType] ++ n.caller.val ++ le16 n.interval ++ le16 n.latency ++
    le16 n.timeout ++ [clockCode n.clock]

/-- LE Connection Update Complete (7.7.65.3), at either end, when the connection has got new parameters. -/
def updated (handle interval latency timeout : UInt16) : List UInt8 :=
  [0x3E, 10, 0x03, 0] ++ le16 handle ++ le16 interval ++ le16 latency ++ le16 timeout

/-! ## The application that called -/

/-- Whom the application asked to call. -/
def Calls (a : Asked) (p : ConnectionParameters) (x : BdAddrType) : Prop :=
  match p.initiatorFilterPolicy with
  | .whiteList => a.whiteList (.device x) = true
  | .useAddress => p.peerAddress = match x with
    | .pub b => .publicDeviceAddress b
    | .random b => .randomDeviceAddress b

end Spec
