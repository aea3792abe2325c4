import Verif.Model.Address
import Verif.Model.ReadMultiple
/-!
# device.go, readprop.go, writeprop.go, readmulti.go, writemulti.go: the client

`handleMsg` is a function from a datagram to the calls it makes on the
transaction manager and on the subscription manager.  The four request calls
are functions of what the network does in each attempt.
-/

namespace Bac

/-! ## The receive path -/

/-- What is handed to `utsm.Publish` (device.go:153, 157, 194). -/
inductive Published where
  | iam (i : IAm)
  | npdu (n : NPDU)
  | networks (l : Option (List Address))
  deriving DecidableEq, Repr

/-- What is handed to `tsm.Send` (device.go:206, 212, 218, 224): the octets of the
APDU, or an error built from class and code. -/
inductive Delivered where
  | apdu (b : List UInt8)
  | error (cls : UInt16) (code : UInt32)
  deriving DecidableEq, Repr

/-- A call made by `handleMsg`.  The calls are at device.go:131-241. -/
inductive Effect where
  | publish (id : Int) (p : Published)
  | deliver (invoke : UInt8) (d : Delivered)
  deriving DecidableEq, Repr

/-- device.go:150-161: the calls made for a network layer message
(`NetworkIs` = 0x13, `IamRouterToNetwork` = 0x01); `Source` was set by the decoder. -/
def networkEffects (n : NPDU) (nets : Option (List Address)) : List Effect × Outcome Unit :=
  if n.isNetworkLayerMessage then
    if n.networkLayerMessageType = 0x13 then
      match n.source with
      | some s => ([.publish s.net.toNat (.npdu n)], .ok ())
      | none => ([], .panic .nilDeref)
    else if n.networkLayerMessageType = 0x01 then
      match n.source with
      | some s => ([.publish s.net.toNat (.networks nets)], .ok ())
      | none => ([], .panic .nilDeref)
    else ([], .ok ())
  else ([], .ok ())

/-- device.go:177-188: the address of an I-Am is the sender's, overridden by the
source network and hardware address of the network header. -/
def iamAddress (src : Address) (n : NPDU) : Address :=
  match n.source with
  | some s =>
    let a := if s.net > 0 then { src with net := s.net } else src
    if s.adr.length > 0 then { a with adr := s.adr } else a
  | none => src

/-- device.go:170-231: the switch over the APDU type.  `pending` tells whether
`tsm.Send` finds an open transaction for the id; the result `true` means that
control reaches the end of the switch, `false` that `handleMsg` returned. -/
def apduEffects (src : Address) (n : NPDU) (pending : UInt8 → Bool) (send : List UInt8) (a : APDU) :
    List Effect × Outcome Bool :=
  if a.dataType = 0x10 then
    if a.unconfirmedService = 0 then
      match Dec.iAm (Dec.new a.rawData) with
      | .ok ((iam, err), _) =>
        if err.isSome then ([], .ok false)
        else ([.publish iam.id.inst.toNat (.iam { iam with addr := iamAddress src n })], .ok true)
      | .panic k => ([], .panic k)
      | .diverge => ([], .diverge)
    else if a.unconfirmedService = 8 then
      match Dec.whoIs (Dec.new a.rawData) with
      | .ok _ => ([], .ok true)
      | .panic k => ([], .panic k)
      | .diverge => ([], .diverge)
    else ([], .ok true)
  else if a.dataType = 0x20 ∨ a.dataType = 0x30 ∨ a.dataType = 0x00 then
    ([.deliver a.invokeId (.apdu send)], .ok (pending a.invokeId))
  else if a.dataType = 0x50 then
    ([.deliver a.invokeId (.error a.errorClass a.errorCode)], .ok true)
  else ([], .ok true)

/-- device.go:142-232: a frame whose function is broadcast, unicast or forwarded;
`d` is the decoder after the frame header. -/
def networkMsg (src : Address) (pending : UInt8 → Bool) (d : Dec) : List Effect × Outcome Bool :=
  match Dec.npdu d with
  | .ok ((n, nets, err), d) =>
    if err.isSome then ([], .ok false)
    else
      match networkEffects n nets with
      | (es, .ok ()) =>
        match Dec.apdu d with
        | .ok ((a, err), _) =>
          if err.isSome then (es, .ok false)
          else
            let r := apduEffects src n pending d.buf a
            (es ++ r.1, r.2)
        | .panic k => (es, .panic k)
        | .diverge => (es, .diverge)
      | (es, .panic k) => (es, .panic k)
      | (es, .diverge) => (es, .diverge)
  | .panic k => ([], .panic k)
  | .diverge => ([], .diverge)

/-- device.go:131-241 `handleMsg`: the calls made, in order, and how it ends.
BacFuncForwardedNPDU = 4, BacFuncUnicast = 10, BacFuncBroadcast = 11;
`b[10:]` after `b = b[4:]` panics when fewer than 14 octets arrived.
Logging is left out. -/
def handleMsg (src : Address) (pending : UInt8 → Bool) (b : List UInt8) :
    List Effect × Outcome Unit :=
  match Dec.bvlc (Dec.new b) with
  | .ok ((header, err), d) =>
    if err.isSome then ([], .ok ())
    else if header.function = 11 ∨ header.function = 10 ∨ header.function = 4 then
      match networkMsg src pending d with
      | (es, .ok reached) =>
        if reached ∧ header.function = 4 ∧ b.length - 4 < 10 then (es, .panic .sliceBounds)
        else (es, .ok ())
      | (es, .panic k) => (es, .panic k)
      | (es, .diverge) => (es, .diverge)
    else ([], .ok ())
  | .panic k => ([], .panic k)
  | .diverge => ([], .diverge)

/-! ## The request calls -/

/-- btypes/device.go:19-35 `Device`: what the calls use of it. -/
structure Device where
  addr : Address := {}
  maxApdu : UInt32 := 0
  deriving DecidableEq, Repr, Inhabited

/-- What `tsm.Receive` gives: nothing within five seconds, octets, an error made
by `handleMsg`, or a value of another type (nil from a closed channel).
tsm/transactions.go:81-101; the cases are those of readprop.go:49-60. -/
inductive Recv where
  | timeout
  | bytes (b : List UInt8)
  | error (cls : UInt16) (code : UInt32)
  | other
  deriving DecidableEq, Repr

/-- What the network does in one attempt: the error of the data link, if any, and
what is received otherwise.  readprop.go:42-52, writeprop.go:37-47, readmulti.go:69-80, writemulti.go:55-64. -/
structure Attempt where
  sendErr : Option GoErr := none
  recv : Recv := .timeout
  deriving DecidableEq, Repr

/-- The errors a call returns; the texts are left out.
readprop.go:18-76, writeprop.go:11-73, readmulti.go:20-107, writemulti.go:12-86. -/
inductive CallErr where
  | noId
  | encode (e : GoErr)
  | badMaxApdu
  | tooLarge
  | send (e : GoErr)
  | timeout
  | device (cls : UInt16) (code : UInt32)
  | unknownType
  | decode (e : GoErr)
  | failed (e : CallErr)
  deriving DecidableEq, Repr

/-- A datagram handed to the data link: destination and octets.  device.go:249-283 `Send`, datalink/udp.go:114-120. -/
structure Sent where
  dest : Address
  data : List UInt8
  deriving DecidableEq, Repr

/-- The network header of readprop.go:23-32 (and writeprop.go:20-28,
readmulti.go:36-44, writemulti.go:21-29): version 1, expecting a reply, priority
0, hop count 255; `my` is the data link's address. -/
def requestNpdu (my dest : Address) : NPDU :=
  { version := 1, destination := some dest, source := some my, isNetworkLayerMessage := false,
    expectingReply := true, priority := 0, hopCount := 255 }

/-- The first part of an attempt (readprop.go:42-46, writeprop.go:40-43,
readmulti.go:71-74, writemulti.go:56-59): the datagram, and the error of `Send`. -/
def sendAttempt (dest : Address) (pack : List UInt8) (at_ : Attempt) : List Sent × Option GoErr :=
  match sendFrame dest pack none with
  | .error e => ([], some e)
  | .ok frame => ([⟨dest, frame⟩], at_.sendErr)

/-- readprop.go:61-70, writeprop.go:60-68, readmulti.go:91-100, writemulti.go:76-84:
decode the header of an answer and look for an error in it. -/
def answerHeader (b : List UInt8) : Outcome (Except CallErr Dec) :=
  match Dec.apdu (Dec.new b) with
  | .ok ((a, err), d) =>
    match err with
    | some e => .ok (.error (.decode e))
    | none =>
      if a.errorClass ≠ 0 ∨ a.errorCode ≠ 0 then .ok (.error (.device a.errorClass a.errorCode))
      else .ok (.ok d)
  | .panic k => .panic k
  | .diverge => .diverge

/-- What a delivered message is for the receiving call (readprop.go:52-60,
writeprop.go:49-59, readmulti.go:81-90, writemulti.go:66-75: the dynamic type of the value). -/
def Delivered.toRecv : Delivered → Recv
  | .apdu b => .bytes b
  | .error c k => .error c k

/-- readprop.go:61-74: the answer to a ReadProperty, as octets. -/
def readAnswer (fuel : Nat) (b : List UInt8) : Outcome (Except CallErr PropertyData) := do
  match ← answerHeader b with
  | .error e => pure (.error e)
  | .ok d =>
    let ((out, err), d) ← Dec.readProperty fuel d
    match err with
    | some e => pure (.error (.decode e))
    | none =>
      match d.err with
      | some e => pure (.error (.decode e))
      | none => pure (.ok out)

/-- How one attempt of a call ends: the call returns, or the loop goes on with an error.
The loops readprop.go:39-75, writeprop.go:37-71, readmulti.go:60-65, writemulti.go:46-51. -/
inductive Step (α : Type) where
  | done (r : Except CallErr α)
  | retry (e : CallErr)
  deriving Repr

/-- readprop.go:48-74: one pass of the loop after the datagram was handed over. -/
def readStep (fuel : Nat) : Recv → Outcome (Step PropertyData)
  | .timeout => .ok (.retry .timeout)
  | .error c k => .ok (.done (.error (.device c k)))
  | .other => .ok (.done (.error .unknownType))
  | .bytes b => do
    match ← readAnswer fuel b with
    | .ok out => pure (.done (.ok out))
    | .error e => pure (.retry e)

/-- writeprop.go:44-70: one pass of the loop after the datagram was handed over. -/
def writeStep : Recv → Outcome (Step Unit)
  | .timeout => .ok (.retry .timeout)
  | .error c k => .ok (.done (.error (.device c k)))
  | .other => .ok (.done (.error .unknownType))
  | .bytes b => do
    match ← answerHeader b with
    | .ok _ => pure (.done (.ok ()))
    | .error e => pure (.retry e)

/-- readmulti.go:76-107 `sendReadMultipleProperty` after the datagram was handed
over; any error is retried (60-65). -/
def readMultiStep (fuel : Nat) : Recv → Outcome (Step (List Object))
  | .timeout => .ok (.retry .timeout)
  | .error c k => .ok (.retry (.device c k))
  | .other => .ok (.retry .unknownType)
  | .bytes b => do
    match ← answerHeader b with
    | .error e => pure (.retry e)
    | .ok d =>
      let ((out, err), _) ← Dec.readMultipleAck fuel d
      match err with
      | some e => pure (.retry (.decode e))
      | none => pure (.done (.ok out))

/-- writemulti.go:61-86 `sendWriteMultipleProperty` after the datagram was handed over. -/
def writeMultiStep : Recv → Outcome (Step Unit)
  | .timeout => .ok (.retry .timeout)
  | .error c k => .ok (.retry (.device c k))
  | .other => .ok (.retry .unknownType)
  | .bytes b => do
    match ← answerHeader b with
    | .ok _ => pure (.done (.ok ()))
    | .error e => pure (.retry e)

/-- The loops readprop.go:38-76, writeprop.go:36-72, readmulti.go:58-65,
writemulti.go:44-51: at most `n` more attempts starting with number `i`; `last`
is the error the call returns when there are no more. -/
def attempts {α : Type} (dest : Address) (pack : List UInt8) (step : Recv → Outcome (Step α))
    (script : Nat → Attempt) : Nat → Nat → CallErr → List Sent × Outcome (Except CallErr α)
  | 0, _, last => ([], .ok (.error last))
  | n + 1, i, _ =>
    let (sent, err) := sendAttempt dest pack (script i)
    match err with
    | some e =>
      let r := attempts dest pack step script n (i + 1) (.send e)
      (sent ++ r.1, r.2)
    | none =>
      match step (script i).recv with
      | .ok (.done r) => (sent, .ok r)
      | .ok (.retry e) =>
        let r := attempts dest pack step script n (i + 1) e
        (sent ++ r.1, r.2)
      | .panic k => (sent, .panic k)
      | .diverge => (sent, .diverge)

/-- readmulti.go:66, writemulti.go:52: the last error is wrapped. -/
def wrapFailed {α : Type} (r : Outcome (Except CallErr α)) : Outcome (Except CallErr α) := do
  match ← r with
  | .ok a => pure (.ok a)
  | .error e => pure (.error (.failed e))

/-- const.go:4. -/
def retryCount : Nat := 1

/-- readmulti.go:12. -/
def maxReattempt : Nat := 2

/-- readprop.go:13-77 `ReadProperty`.  `invoke` is what `tsm.ID` gave (none: the
context ended first).  When the call returns an error the returned data is left out. -/
def clientReadProperty (fuel : Nat) (my : Address) (dev : Device) (rp : PropertyData)
    (invoke : Option UInt8) (script : Nat → Attempt) :
    List Sent × Outcome (Except CallErr PropertyData) :=
  match invoke with
  | none => ([], .ok (.error .noId))
  | some id =>
    let dest := dev.addr.setLength
    match (do let e ← Enc.new.npdu (requestNpdu my dest); e.readProperty id rp) with
    | .ok (e, _) =>
      match e.err with
      | some err => ([], .ok (.error (.encode err)))
      | none => attempts dest e.buf (readStep fuel) script retryCount 0 (.failed .noId)
    | .panic k => ([], .panic k)
    | .diverge => ([], .diverge)

/-- writeprop.go:11-73 `WriteProperty`; the error returned by the encoder is
dropped, only the recorded one is looked at. -/
def clientWriteProperty (my : Address) (dev : Device) (wp : PropertyData)
    (invoke : Option UInt8) (script : Nat → Attempt) : List Sent × Outcome (Except CallErr Unit) :=
  match invoke with
  | none => ([], .ok (.error .noId))
  | some id =>
    let dest := dev.addr.setLength
    match (do let e ← Enc.new.npdu (requestNpdu my dest); e.writeProperty id wp) with
    | .ok (e, _) =>
      match e.err with
      | some err => ([], .ok (.error (.encode err)))
      | none => attempts dest e.buf writeStep script 2 0 (.failed .noId)
    | .panic k => ([], .panic k)
    | .diverge => ([], .diverge)

/-- readmulti.go:20-67 `ReadMultiProperty`; btypes/device.go:111-118 `CheckADPU`
refuses the limit 0 only.  The length of the encoding is truncated to 32 bits. -/
def clientReadMulti (fuel : Nat) (my : Address) (dev : Device) (rp : List Object)
    (invoke : Option UInt8) (script : Nat → Attempt) :
    List Sent × Outcome (Except CallErr (List Object)) :=
  match invoke with
  | none => ([], .ok (.error .noId))
  | some id =>
    let dest := dev.addr.setLength
    if dev.maxApdu = 0 then ([], .ok (.error .badMaxApdu))
    else
      match (do let e ← Enc.new.npdu (requestNpdu my dest); e.readMultiple id rp) with
      | .ok (e, _) =>
        match e.err with
        | some err => ([], .ok (.error (.encode err)))
        | none =>
          if dev.maxApdu < UInt32.ofNat e.buf.length then ([], .ok (.error .tooLarge))
          else
            let r := attempts dest e.buf (readMultiStep fuel) script maxReattempt 0 (.failed .noId)
            (r.1, wrapFailed r.2)
      | .panic k => ([], .panic k)
      | .diverge => ([], .diverge)

/-- writemulti.go:12-53 `WriteMultiProperty`; the address length is not set here. -/
def clientWriteMulti (my : Address) (dev : Device) (wp : List Object)
    (invoke : Option UInt8) (script : Nat → Attempt) : List Sent × Outcome (Except CallErr Unit) :=
  match invoke with
  | none => ([], .ok (.error .noId))
  | some id =>
    match (do let e ← Enc.new.npdu (requestNpdu my dev.addr); e.writeMultiple id wp) with
    | .ok (e, _) =>
      match e.err with
      | some err => ([], .ok (.error (.encode err)))
      | none =>
        if dev.maxApdu < UInt32.ofNat e.buf.length then ([], .ok (.error .tooLarge))
        else
          let r := attempts dev.addr e.buf writeMultiStep script maxReattempt 0 (.failed .noId)
          (r.1, wrapFailed r.2)
    | .panic k => ([], .panic k)
    | .diverge => ([], .diverge)

end Bac
