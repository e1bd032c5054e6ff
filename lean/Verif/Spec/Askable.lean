import Verif.Spec.Acceptable

/-! # Specification: which packets of the standard can be asked for

Stated on the bytes of a packet. Some bytes of a packet are ignored by the controller (Vol 2, Part E, 7.8.5,
7.8.7, 7.8.8, 7.8.12, 7.8.16, 7.8.17); packets that differ in nothing else ask for the same. -/

namespace Spec

open Bt

/-- The parameters of the command with opcode `op`, with the bytes that are ignored set to zero: the intervals
of high duty cycle directed advertising, the bytes after the significant part of advertising data and of scan
response data, the peer address of a connection to a device in the white list, and the address of anonymous
advertisers. -/
def significant (op : UInt16) (ps : List UInt8) : List UInt8 :=
  if op = 0x2006 ∧ byteAt ps 4 = 1 then zeroes 4 ++ ps.drop 4
  else if op = 0x2008 ∨ op = 0x2009 then ps.take (1 + byteAt ps 0) ++ zeroes (31 - byteAt ps 0)
  else if op = 0x200D ∧ byteAt ps 4 = 1 then ps.take 5 ++ zeroes 7 ++ ps.drop 12
  else if (op = 0x2011 ∨ op = 0x2012) ∧ byteAt ps 0 = 0xFF then ps.take 1 ++ zeroes 6
  else ps

/-- The two packets ask for the same. -/
def SameRequest (op : UInt16) (ps qs : List UInt8) : Prop :=
  ps.length = qs.length ∧ significant op ps = significant op qs

/-- Connection parameters whose supervision timeout exceeds the minimum of the standard by enough. The interval
on the wire is `u` units of 1.25 ms; the shortest interval in whole milliseconds that is written as `u` units
is `(5 * u + 3) / 4`. The longest timeout that is written as `t` units of 10 ms is below `10 * (t + 1)` ms, and
at most 32 s. -/
def RoomAt (ps : List UInt8) (i : Nat) : Prop :=
  2 * (1 + u16At ps (i + 4)) * ((5 * u16At ps (i + 2) + 3) / 4) < min (10 * (u16At ps (i + 6) + 1)) 32000

/-- The packets that can be asked for: all except connection parameters whose timeout is too close to the
minimum, and tests with more than 37 bytes. -/
def Askable (op : UInt16) (ps : List UInt8) : Prop :=
  (op = 0x200D → RoomAt ps 13) ∧ (op = 0x2013 → RoomAt ps 2) ∧ (op = 0x201E → byteAt ps 1 ≤ 0x25)

end Spec
