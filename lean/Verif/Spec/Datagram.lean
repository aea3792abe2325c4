import Verif.Spec.Headers
/-!
# Specification: datagrams and the kinds of answers

From ASHRAE 135 annex J.2.5 (Forwarded-NPDU) and clause 20.1 (the PDU types).
Nothing here refers to the model of the Go code.
-/

namespace Spec

/-- Annex J.2.5: a Forwarded-NPDU frame carries the originator's IP address and
port (six octets) before the NPDU. -/
def forwarded (ip : UInt8 × UInt8 × UInt8 × UInt8) (port : UInt8 × UInt8) (npdu : List UInt8) :
    List UInt8 :=
  frame 4 ([ip.1, ip.2.1, ip.2.2.1, ip.2.2.2, port.1, port.2] ++ npdu)

/-- Clause 20.1.4. -/
def simpleAck (invoke service : UInt8) : List UInt8 := [0x20, invoke, service]

/-- Clause 20.1.5, not segmented. -/
def complexAck (invoke service : UInt8) (data : List UInt8) : List UInt8 :=
  [0x30, invoke, service] ++ data

/-- Clause 20.1.5, one segment of a segmented answer. -/
def complexAckSegment (more : Bool) (invoke seqNo window service : UInt8) (data : List UInt8) :
    List UInt8 :=
  [if more then 0x3C else 0x38, invoke, seqNo, window, service] ++ data

/-- Clause 20.1.7: error class and code are application-tagged enumerations, here
of one octet each. -/
def errorPdu (invoke service cls code : UInt8) : List UInt8 :=
  [0x50, invoke, service, 0x91, cls, 0x91, code]

/-- Clause 20.1.8. -/
def reject (invoke reason : UInt8) : List UInt8 := [0x60, invoke, reason]

/-- Clause 20.1.9. -/
def abort (server : Bool) (invoke reason : UInt8) : List UInt8 :=
  [if server then 0x71 else 0x70, invoke, reason]

/-- The PDU type is the upper half of the first octet. -/
def pduType (apdu : List UInt8) : Option Nat := apdu.head?.map fun t => t.toNat / 16

/-- An answer (SimpleACK, ComplexACK, Error, Reject, Abort) to the request with
this invoke id, which is the second octet of all of them. -/
def Answers (apdu : List UInt8) (invoke : UInt8) : Prop :=
  (pduType apdu = some 2 ∨ pduType apdu = some 3 ∨ pduType apdu = some 5 ∨
    pduType apdu = some 6 ∨ pduType apdu = some 7) ∧ apdu[1]? = some invoke

/-- A confirmed request; its invoke id is the third octet. -/
def Requests (apdu : List UInt8) (invoke : UInt8) : Prop :=
  pduType apdu = some 0 ∧ apdu[2]? = some invoke

/-- A network header of an application message with legal fields. -/
def NetHeader.Ok (h : NetHeader) : Prop :=
  h.msg = none ∧ h.priority < 4 ∧
  (∀ a, h.dest = some a → 0 < a.net ∧ a.net < 65536 ∧ a.adr.length < 256) ∧
  (∀ a, h.src = some a → 0 < a.net ∧ a.net < 65536 ∧ a.adr.length < 256)

/-- Clause 6.2: the network header of a request to a station: version 1, an answer
is expected, normal priority; for a station on another network its address and the
full hop count. -/
def requestHeader (dest : Option NetAddr) : NetHeader :=
  { version := 1, expectingReply := true, priority := 0, dest := dest, hop := 255, src := none,
    msg := none }

end Spec
