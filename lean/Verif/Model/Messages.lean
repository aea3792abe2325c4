import Verif.Model.Decoder
/-!
# encoding/bvlc.go, npdu.go, apdu.go: the three protocol headers
-/

namespace Bac

/-! ## BVLC -/

/-- btypes/bvlc.go:24-32 `BVLC`. -/
structure BVLC where
  typ : UInt8 := 0
  function : UInt8 := 0
  length : UInt16 := 0
  data : List UInt8 := []
  deriving DecidableEq, Repr, Inhabited

/-- encoding/bvlc.go:9-16 `Encoder.BVLC`; the second component is the returned error. -/
def Enc.bvlc (e : Enc) (b : BVLC) : Enc × Option GoErr :=
  let e := e.write [b.typ]
  let e := e.write [b.function]
  let e := e.write (be16 b.length)
  let e := e.write b.data
  (e, e.err)

/-- encoding/bvlc.go:18-24 `Decoder.BVLC` into a zero `BVLC`.  `Data` is a nil
slice there, so `binary.Read` into it reads zero bytes. -/
def Dec.bvlc : D (BVLC × Option GoErr) := do
  let t ← Dec.u8
  let f ← Dec.u8
  let l ← Dec.u16
  let err ← Dec.error
  pure (⟨t, f, l, []⟩, err)

/-! ## NPDU -/

/-- btypes/npdu.go:17-33 `NPDU`; pointers are options. -/
structure NPDU where
  version : UInt8 := 0
  destination : Option Address := none
  source : Option Address := none
  vendorId : UInt16 := 0
  isNetworkLayerMessage : Bool := false
  networkLayerMessageType : UInt8 := 0
  expectingReply : Bool := false
  priority : UInt8 := 0
  hopCount : UInt8 := 0
  deriving DecidableEq, Repr, Inhabited

/-- encoding/npdu.go:148-151 `checkMask`. -/
def checkMask (meta_ mask : UInt8) : Bool := decide (meta_ &&& mask > 0)

/-- encoding/npdu.go:12-32: the second octet of the network header. -/
def npduMeta (n : NPDU) : UInt8 :=
  let m := setInfoMask 0 n.isNetworkLayerMessage 0x80
  let m := setInfoMask m n.expectingReply 0x04
  let m := m ||| n.priority
  let m := match n.destination with
    | some a => if a.net ≠ 0 then setInfoMask m true 0x20 else m
    | none => m
  match n.source with
    | some a => if a.net ≠ 0 then setInfoMask m true 0x08 else m
    | none => m

/-- encoding/npdu.go:34-46: one address in the header. -/
def Enc.npduAddress (e : Enc) (a : Address) : Enc :=
  ((e.write (be16 a.net)).write [a.len]).write a.adr

/-- encoding/npdu.go:34-46: an address written when the control octet says so
(the pointer is dereferenced without a check). -/
def Enc.optNpduAddress (e : Enc) (c : Bool) (a : Option Address) : Outcome Enc :=
  if c then
    match a with
    | some a => .ok (e.npduAddress a)
    | none => .panic .nilDeref
  else .ok e

/-- encoding/npdu.go:11-63 `Encoder.NPDU`.  A priority with bits above the two
low ones can announce a destination that is a nil pointer (panic). -/
def Enc.npdu (e : Enc) (n : NPDU) : Outcome Enc := do
  let e := e.write [n.version]
  let m := npduMeta n
  let e := e.write [m]
  let e ← e.optNpduAddress (checkMask m 0x20) n.destination
  let e ← e.optNpduAddress (checkMask m 0x08) n.source
  let e := if checkMask m 0x20 then e.write [n.hopCount] else e
  if checkMask m 0x80 then
    let e := e.write [n.networkLayerMessageType]
    .ok (if n.networkLayerMessageType ≥ 0x80 then e.write (be16 n.vendorId) else e)
  else .ok e

/-- encoding/npdu.go:65-72 `Decoder.Address` into a zero `Address`. -/
def Dec.address : D Address := do
  let net ← Dec.u16
  let len ← Dec.u8
  let adr ← Dec.bytes len.toNat
  pure { net := net, len := len, adr := adr }

/-- `d.decode(&x)` for a uint16 variable that already holds a value.  encoding/decoder.go:50-56. -/
def Dec.u16Into (old : UInt16) : D UInt16 := do
  match ← Dec.readN 2 with
  | some [a, b] => pure (rd16 a b)
  | _ => pure old

/-- encoding/npdu.go:90-98: an address that is present only when announced. -/
def Dec.optAddress (c : Bool) : D (Option Address) :=
  if c then (do let a ← Dec.address; pure (some a)) else pure none

/-- An octet that is read only under a condition, otherwise zero
(encoding/npdu.go:100-104, encoding/apdu.go:162-165). -/
def Dec.optU8 (c : Bool) : D UInt8 := if c then Dec.u8 else pure 0

/-- encoding/npdu.go:108-110: a vendor id that is read only under a condition. -/
def Dec.optU16 (c : Bool) : D UInt16 := if c then Dec.u16 else pure 0

/-- encoding/apdu.go:167-171: the rest of the input, if there is any. -/
def Dec.restBytes : D (List UInt8) := do
  let n ← Dec.len
  if n > 0 then Dec.bytes n else pure []

/-- encoding/npdu.go:79-132 `Decoder.NPDU` into a zero `NPDU`: the header, the
list of networks (nil is `none`), and the returned error.  The loop of lines
119-126 runs exactly once (`size` is the value `i` starts from), and the inner
range is over the one-element slice. -/
def Dec.npdu : D (NPDU × Option (List Address) × Option GoErr) := do
  let version ← Dec.u8
  let m ← Dec.u8
  let dest ← Dec.optAddress (checkMask m 0x20)
  let src ← Dec.optAddress (checkMask m 0x08)
  let hop ← Dec.optU8 (checkMask m 0x20)
  let n : NPDU :=
    { version := version, destination := dest, source := src,
      isNetworkLayerMessage := checkMask m 0x80, expectingReply := checkMask m 0x04,
      priority := m &&& 3, hopCount := hop }
  if checkMask m 0x80 then
    let t ← Dec.u8
    let vendor ← Dec.optU16 (decide (t > 0x80))
    let n := { n with networkLayerMessageType := t, vendorId := vendor }
    if t = 0x13 then
      let net ← Dec.u16
      let err ← Dec.error
      pure ({ n with source := some { net := net } }, none, err)
    else if t = 0x01 then
      let net1 ← Dec.u16
      let net2 ← Dec.u16Into net1
      let first : Address := { net := net1 }
      let second : Address := { net := net2 }
      let err ← Dec.error
      pure ({ n with source := some second },
        some (if net1 ≠ net2 then [first, second] else [first]), err)
    else
      let err ← Dec.error
      pure (n, none, err)
  else
    let err ← Dec.error
    pure (n, none, err)

/-! ## APDU -/

/-- btypes/apdu.go:86-104 `APDU`; Go `uint` is `Nat`. -/
structure APDU where
  dataType : UInt8 := 0
  segmentedMessage : Bool := false
  moreFollows : Bool := false
  segmentedResponseAccepted : Bool := false
  maxSegs : Nat := 0
  maxApdu : Nat := 0
  invokeId : UInt8 := 0
  sequence : UInt8 := 0
  windowNumber : UInt8 := 0
  service : UInt8 := 0
  unconfirmedService : UInt8 := 0
  errorClass : UInt16 := 0
  errorCode : UInt32 := 0
  rawData : List UInt8 := []
  deriving DecidableEq, Repr, Inhabited

/-- encoding/apdu.go:11-15: the first octet; `setDataType` (lines 218-221) keeps
the upper bits of 0 and ORs the whole type in. -/
def apduMeta (a : APDU) : UInt8 :=
  let m : UInt8 := ((0 : UInt8) &&& 0xF0) ||| a.dataType
  let m := setInfoMask m a.moreFollows 0x04
  let m := setInfoMask m a.segmentedMessage 0x08
  setInfoMask m a.segmentedResponseAccepted 0x02

/-- encoding/apdu.go:39-47 `apduConfirmed`. -/
def Enc.apduConfirmed (e : Enc) (a : APDU) : Enc :=
  let e := e.maxSegsMaxApdu a.maxSegs a.maxApdu
  let e := e.write [a.invokeId]
  let e := if a.segmentedMessage then (e.write [a.sequence]).write [a.windowNumber] else e
  e.write [a.service]

/-- encoding/apdu.go:10-37 `Encoder.APDU` (with 49-51 `apduUnconfirmed`, 53-56
`apduComplexAck` inlined); the returned error is not recorded in the encoder. -/
def Enc.apdu (e : Enc) (a : APDU) : Enc × Option GoErr :=
  let e := e.write [apduMeta a]
  if a.dataType = 0x30 then ((e.write [a.invokeId]).write [a.service], none)
  else if a.dataType = 0x10 then (e.write [a.unconfirmedService], none)
  else if a.dataType = 0x00 then (e.apduConfirmed a, none)
  else (e, some .unsupportedPdu)

/-- encoding/apdu.go:111-138 `apduError`; the tag octet `m` is what lines 126-129
store as class and code. -/
def Dec.apduError (a : APDU) : D (APDU × Option GoErr) := do
  let inv ← Dec.u8
  let svc ← Dec.u8
  let a := { a with invokeId := inv, service := svc }
  let (_, m) ← Dec.tagNumber
  if isOpening m then
    let (_, _, v) ← Dec.tagNumberAndValue
    let cls ← Dec.unsigned v.toNat
    let (_, _, v) ← Dec.tagNumberAndValue
    let code ← Dec.unsigned v.toNat
    let (_, m) ← Dec.tagNumber
    pure ({ a with errorClass := cls.toUInt16, errorCode := code },
      if isClosing m then none else some .wrongTagType)
  else
    let (_, m1, _) ← Dec.tagNumberAndValue
    let (_, m2, _) ← Dec.tagNumberAndValue
    pure ({ a with errorClass := m1.toUInt16, errorCode := m2.toUInt32 }, none)

/-- encoding/apdu.go:140-150 `apduComplexAck`, `apduSimpleAck`. -/
def Dec.apduAck (a : APDU) : D (APDU × Option GoErr) := do
  let inv ← Dec.u8
  let svc ← Dec.u8
  let err ← Dec.error
  pure ({ a with invokeId := inv, service := svc }, err)

/-- encoding/apdu.go:152-157 `apduUnconfirmed`. -/
def Dec.apduUnconfirmed (a : APDU) : D (APDU × Option GoErr) := do
  let svc ← Dec.u8
  let n ← Dec.len
  let raw ← Dec.bytes n
  let err ← Dec.error
  pure ({ a with unconfirmedService := svc, rawData := raw }, err)

/-- encoding/apdu.go:158-174 `apduConfirmed`. -/
def Dec.apduConfirmed (a : APDU) : D (APDU × Option GoErr) := do
  let b ← Dec.u8
  let inv ← Dec.u8
  let sq ← Dec.optU8 a.segmentedMessage
  let win ← Dec.optU8 a.segmentedMessage
  let svc ← Dec.u8
  let raw ← Dec.restBytes
  let err ← Dec.error
  pure ({ a with maxSegs := decodeMaxSegs b, maxApdu := decodeMaxApdu b, invokeId := inv,
                 sequence := sq, windowNumber := win, service := svc, rawData := raw }, err)

/-- encoding/apdu.go:58-86 `Decoder.APDU` into a zero `APDU`. -/
def Dec.apdu : D (APDU × Option GoErr) := do
  let m ← Dec.u8
  let t := m &&& 0xF0
  let a : APDU :=
    { segmentedMessage := checkMask m 0x08, segmentedResponseAccepted := checkMask m 0x02,
      moreFollows := checkMask m 0x04, dataType := t }
  if t = 0x30 ∨ t = 0x20 then Dec.apduAck a
  else if t = 0x10 then Dec.apduUnconfirmed a
  else if t = 0x00 then Dec.apduConfirmed a
  else if t = 0x50 then Dec.apduError a
  else pure (a, some .unsupportedPdu)

end Bac
