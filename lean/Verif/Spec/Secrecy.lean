import Verif.Spec.Ledger

/-! # Specification: packets that tell whether a connection is encrypted

In bytes, without the parser (Bluetooth specification, Vol 2, Part E, 7.7.3, 7.7.5, 7.7.8, 7.7.65.1). -/

namespace Spec

open Bt

/-- The packet says that connection `h` is encrypted from now on: Encryption Change with a successful status and
encryption 1 or 2, or Connection Complete with a successful status and encryption 1. -/
inductive Encrypts (h : UInt16) : List UInt8 → Prop where
  | change {e : UInt8} : e = 1 ∨ e = 2 → Encrypts h (frame 0x08 (0 :: le16 h ++ [e]))
  | connection {a : List UInt8} {linkType : UInt8} : a.length = 6 →
      Encrypts h (frame 0x03 (0 :: le16 h ++ a ++ [linkType, 1]))

/-- The packet says that connection `h` is not encrypted from now on: encryption is turned off, the connection ends,
or a connection with this handle begins without encryption. -/
inductive Unencrypts (h : UInt16) : List UInt8 → Prop where
  | change : Unencrypts h (frame 0x08 (0 :: le16 h ++ [0]))
  | disconnection {reason : UInt8} : Unencrypts h (frame 0x05 (0 :: le16 h ++ [reason]))
  | connection {a : List UInt8} {linkType : UInt8} : a.length = 6 →
      Unencrypts h (frame 0x03 (0 :: le16 h ++ a ++ [linkType, 0]))
  | leConnection {rest : List UInt8} : Unencrypts h (frame 0x3E (0x01 :: 0 :: le16 h ++ rest))

/-- The parser accepts the packet. -/
def Accepted (c : Cfg) (V : Vendor) (p : List UInt8) : Prop := ∃ e, Event.new c V p = .ok e

/-- The last of the accepted packets that speak of the encryption of connection `h` says that it is encrypted. -/
def LastEncrypts (c : Cfg) (V : Vendor) (h : UInt16) (packets : List (List UInt8)) : Prop :=
  ∃ before p after, packets = before ++ p :: after ∧ Accepted c V p ∧ Encrypts h p ∧
    ∀ q ∈ after, Accepted c V q → ¬ Unencrypts h q

end Spec
