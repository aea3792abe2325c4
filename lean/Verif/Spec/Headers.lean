import Verif.Spec.Wire
/-!
# Specification: BACnet/IP frame, network header and application header

From ASHRAE 135 annex J.2 (BVLC), clause 6.2 (NPCI) and clause 20.1 (APDU fixed
parts).  Nothing here refers to the model of the Go code.
-/

namespace Spec

/-- Annex J.2: type 0x81, function, total length in two octets, payload. -/
def frame (function : UInt8) (payload : List UInt8) : List UInt8 :=
  [0x81, function] ++ bigEndian 2 (4 + payload.length) ++ payload

/-- One network address in a network header: network number and hardware address. -/
structure NetAddr where
  net : Nat
  adr : List UInt8
  deriving DecidableEq, Repr

/-- Network layer message type, with vendor for types `≥ 0x80`. -/
structure NetMsg where
  type : UInt8
  vendor : Nat
  deriving DecidableEq, Repr

/-- Clause 6.2: the fields of a network header. -/
structure NetHeader where
  version : UInt8
  expectingReply : Bool
  priority : Nat
  dest : Option NetAddr
  hop : UInt8
  src : Option NetAddr
  msg : Option NetMsg
  deriving DecidableEq, Repr

/-- Clause 6.2.2: the control octet. -/
def NetHeader.control (h : NetHeader) : Nat :=
  (if h.msg.isSome then 128 else 0) + (if h.dest.isSome then 32 else 0)
    + (if h.src.isSome then 8 else 0) + (if h.expectingReply then 4 else 0) + h.priority

/-- Network number, length of the hardware address, hardware address. -/
def NetAddr.octets (a : NetAddr) : List UInt8 :=
  bigEndian 2 a.net ++ [UInt8.ofNat a.adr.length] ++ a.adr

/-- Clause 6.2: the octets of a network header. -/
def NetHeader.octets (h : NetHeader) : List UInt8 :=
  [h.version, UInt8.ofNat h.control]
    ++ (match h.dest with | some a => a.octets | none => [])
    ++ (match h.src with | some a => a.octets | none => [])
    ++ (if h.dest.isSome then [h.hop] else [])
    ++ (match h.msg with
        | some m => [m.type] ++ (if m.type.toNat ≥ 128 then bigEndian 2 m.vendor else [])
        | none => [])

/-- Clause 20.1.2: fixed part of a Confirmed-Request. -/
def confirmedHeader (seg more accept : Bool) (segsApdu invoke seqNo window service : UInt8) :
    List UInt8 :=
  [UInt8.ofNat ((if seg then 8 else 0) + (if more then 4 else 0) + (if accept then 2 else 0)),
    segsApdu, invoke] ++ (if seg then [seqNo, window] else []) ++ [service]

/-- Clause 20.1.3: fixed part of an Unconfirmed-Request. -/
def unconfirmedHeader (service : UInt8) : List UInt8 := [0x10, service]

/-- Clause 20.1.5: fixed part of an unsegmented ComplexACK. -/
def complexAckHeader (invoke service : UInt8) : List UInt8 := [0x30, invoke, service]

end Spec
