import Verif.Spec.CommandStream
import Verif.Spec.Events

/-! # Specification: how two hosts come to share a key

The host of the central starts encryption with a random number, a diversifier and a key. Its controller keeps the key
and sends the other two to the controller of the peripheral, which asks its host for the key that belongs to them (Vol 6
Part B 5.1.3.1; Vol 2 Part E 7.8.24, 7.8.25, 7.7.65.5). The controllers only copy bytes; so these are byte strings here. -/

namespace Spec

open Bt

/-- The byte before a command. -/
def indicator : Link → List UInt8
  | .uart => [0x01]
  | .cmdLink => []

/-- LE Start Encryption, as the controller of the central takes it apart. -/
def StartsEncryption (l : Link) (bytes handle rand ediv key : List UInt8) : Prop :=
  handle.length = 2 ∧ rand.length = 8 ∧ ediv.length = 2 ∧ key.length = 16 ∧
    bytes = indicator l ++ [0x19, 0x20, 28] ++ handle ++ rand ++ ediv ++ key

/-- LE Long Term Key Request, as the controller of the peripheral puts it together. -/
def keyRequest (handle rand ediv : List UInt8) : List UInt8 := [0x3E, 13, 0x05] ++ handle ++ rand ++ ediv

/-- LE Long Term Key Request Reply, as the controller of the peripheral takes it apart. -/
def RepliesKey (l : Link) (bytes handle key : List UInt8) : Prop :=
  handle.length = 2 ∧ key.length = 16 ∧ bytes = indicator l ++ [0x1A, 0x20, 18] ++ handle ++ key

/-- LE Long Term Key Request Negative Reply. -/
def RepliesNoKey (l : Link) (bytes handle : List UInt8) : Prop :=
  handle.length = 2 ∧ bytes = indicator l ++ [0x1B, 0x20, 2] ++ handle

/-- The application of the peripheral, with the keys that it knows: it answers a request. -/
def answerRequest {V : Vendor} {VS : Type} (keys : UInt64 → UInt16 → Option (Arr 16)) : V.Ev → Option (Command VS)
  | .leLongTermKeyRequest e =>
    match keys e.randomValue e.encryptedDiversifier with
    | some key => some (.leLongTermKeyRequestReply e.connHandle key)
    | none => some (.leLongTermKeyRequestNegativeReply e.connHandle)
  | _ => none

end Spec
