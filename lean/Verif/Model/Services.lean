import Verif.Model.Messages
/-!
# encoding/iam.go, whois.go, readprop.go, writeprop.go, readmultiple.go, writemultiple.go

Requests and answers of the services the client uses.  Encoder methods return
the encoder and the returned error; both may hold an error independently.
-/

namespace Bac

/-- btypes/device.go:11-17 `IAm`. -/
structure IAm where
  id : ObjectID := ⟨0, 0⟩
  maxApdu : UInt32 := 0
  segmentation : UInt32 := 0
  vendor : UInt32 := 0
  addr : Address := {}
  deriving DecidableEq, Repr, Inhabited

/-- btypes/property.go:635-640 `PropertyData`; `InvokeID` is never read. -/
structure PropertyData where
  object : Object := {}
  errorClass : UInt8 := 0
  errorCode : UInt8 := 0
  deriving DecidableEq, Repr, Inhabited

/-- encoding/appdata.go:68-131 `AppData` called as a statement (its returned
error is dropped, the one recorded in the encoder stays). -/
def Enc.appData' (e : Enc) (i : Value) (typeBVBO : Bool) : Outcome Enc := do
  let r ← e.appData i typeBVBO
  pure r.2

/-- encoding/iam.go:7-20 `IAm`. -/
def Enc.iAm (e : Enc) (i : IAm) : Outcome (Enc × Option GoErr) := do
  let e := e.write [0x10]
  let e := e.write [0x00]
  let e ← e.appData' (.one (.objId i.id)) false
  let e ← e.appData' (.one (.uint i.maxApdu)) false
  let e ← e.appData' (.one (.enum i.segmentation)) false
  let e ← e.appData' (.one (.uint i.vendor)) false
  pure (e, e.err)

/-- `if m, ok := x.(uint32); ok { f = m }` (encoding/iam.go:31-41). -/
def uintOr (s : Scalar) (old : UInt32) : UInt32 :=
  match s with
  | .uint v => v
  | _ => old

/-- encoding/iam.go:27-29. -/
def objIdOr (s : Scalar) (old : ObjectID) : ObjectID :=
  match s with
  | .objId v => v
  | _ => old

/-- encoding/iam.go:22-43 `IAm` into a zero `IAm`. -/
def Dec.iAm : D (IAm × Option GoErr) := do
  let (a, err) ← Dec.appData
  if err.isSome then pure ({}, err)
  else
    let (b, _) ← Dec.appData
    let (c, _) ← Dec.appData
    let (v, _) ← Dec.appData
    let err ← Dec.error
    pure ({ id := objIdOr a ⟨0, 0⟩, maxApdu := uintOr b 0, segmentation := uintOr c 0,
            vendor := uintOr v 0 }, err)

/-- encoding/whois.go:7-26 `WhoIs`; MaxInstance = 0x3FFFFF. -/
def Enc.whoIs (e : Enc) (low high : Int32) : Enc × Option GoErr :=
  let e := e.write [0x10]
  let e := e.write [0x08]
  let e := if low ≥ 0 ∧ high ≥ 0 ∧ low < 0x3FFFFF ∧ high < 0x3FFFFF then
      (e.contextUnsigned 0 low.toUInt32).contextUnsigned 1 high.toUInt32
    else e
  (e, e.err)

/-- encoding/whois.go:28-54 `WhoIs`; the two results start as zero. -/
def Dec.whoIs : D ((Int32 × Int32) × Option GoErr) := do
  let n ← Dec.len
  if n = 0 then pure ((-1, -1), none)
  else
    let (tag, _, v) ← Dec.tagNumberAndValue
    if tag ≠ 0 then pure ((0, 0), some (.incorrectTag 0 tag))
    else
      let l ← Dec.unsigned v.toNat
      let (tag, _, v) ← Dec.tagNumberAndValue
      if tag ≠ 1 then pure ((l.toInt32, 0), some (.incorrectTag 1 tag))
      else
        let h ← Dec.unsigned v.toNat
        let err ← Dec.error
        pure ((l.toInt32, h.toInt32), err)

/-- encoding/validate.go:9-14 `isValidObjectType`. -/
def isValidObjectType (t : UInt16) : Option GoErr :=
  if t.toUInt32 > maxObject then some .invalidObjectType else none

/-- encoding/validate.go:16-21 `isValidPropertyType`. -/
def isValidPropertyType (t : UInt32) : Option GoErr :=
  if t > maxPropertyID then some .invalidPropertyType else none

/-- encoding/readprop.go:27-30: a context-tagged array index, unless it is ArrayAll. -/
def Enc.optIndex (e : Enc) (tag : UInt8) (idx : UInt32) : Enc :=
  if idx ≠ arrayAll then e.contextUnsigned tag idx else e

/-- encoding/readprop.go:9-33 `readPropertyHeader`: next tag number and error.
`Properties[0]` panics on an empty list. -/
def Enc.readPropertyHeader (e : Enc) (tagPos : UInt8) (o : Object) :
    Outcome (Enc × UInt8 × Option GoErr) :=
  match isValidObjectType o.id.typ with
  | some err => .ok (e, 0, some err)
  | none =>
    match o.properties with
    | [] => .panic .indexOutOfRange
    | prop :: _ =>
      match isValidPropertyType prop.typ with
      | some err => .ok (e, 0, some err)
      | none =>
        let e := e.contextObjectID tagPos o.id
        let e := e.contextEnumerated (tagPos + 1) prop.typ
        let e := e.optIndex (tagPos + 2) prop.arrayIndex
        .ok (e, tagPos + 3, none)

/-- The request header of encoding/readprop.go:38-45, writeprop.go:9-15,
readmultiple.go:8-15, writemultiple.go:7-14; MaxAPDU = 1476. -/
def requestHeader (service invoke : UInt8) : APDU :=
  { dataType := 0x00, service := service, maxSegs := 0, maxApdu := 1476, invokeId := invoke }

/-- encoding/readprop.go:36-49 `ReadProperty`; the error of the header is dropped. -/
def Enc.readProperty (e : Enc) (invoke : UInt8) (data : PropertyData) :
    Outcome (Enc × Option GoErr) := do
  let e := (e.apdu (requestHeader 12 invoke)).1
  let (e, _, _) ← e.readPropertyHeader 0 data.object
  pure (e, e.err)

/-- encoding/readprop.go:52-77 `ReadPropertyAck`. -/
def Enc.readPropertyAck (e : Enc) (invoke : UInt8) (data : PropertyData) :
    Outcome (Enc × Option GoErr) :=
  match data.object.properties with
  | [prop] => do
    let e := (e.apdu { dataType := 0x30, service := 12, maxSegs := 0, maxApdu := 1476,
                       invokeId := invoke }).1
    let (e, tagId, err) ← e.readPropertyHeader 0 data.object
    if err.isSome then pure (e, err)
    else
      let e := e.openingTag tagId
      let e ← e.appData' prop.data false
      let e := e.closingTag (tagId + 1)
      pure (e, e.err)
  | _ => .ok (e, some (.other 1))

/-- encoding/readprop.go:148-155: the loop over the values; `fuel` bounds the
number of iterations.  Returns the list and the error returned. -/
def Dec.readPropertyValues : Nat → List Scalar → D (List Scalar × Option GoErr)
  | 0, _ => D.diverge
  | fuel + 1, acc => do
    let n ← Dec.len
    if n > 1 then
      let (s, err) ← Dec.appData
      if err.isSome then
        D.modify fun d => { d with err := err }
        pure (acc, err)
      else Dec.readPropertyValues fuel (acc ++ [s])
    else pure (acc, none)

/-- encoding/readprop.go:156-161: a one-element list is replaced by its element. -/
def unlist (l : List Scalar) : Value :=
  match l with
  | [x] => .one x
  | l => .many l

/-- encoding/readprop.go:128-139: array index and the tag that should open the
value; `tag`, `m` are the tag just read. -/
def Dec.readPropertyIndex (tag m : UInt8) : D (UInt32 × UInt8) := do
  let v ← Dec.value m
  if tag = 2 then
    let idx ← Dec.unsigned v.toNat
    let n ← Dec.len
    if n > 0 then
      let (openTag, _) ← Dec.tagNumber
      pure (idx, openTag)
    else pure (idx, 0)
  else pure (arrayAll, tag)

/-- encoding/readprop.go:115-117. -/
def Dec.optTagNumber (c : Bool) (tag m : UInt8) : D (UInt8 × UInt8) :=
  if c then Dec.tagNumber else pure (tag, m)

/-- encoding/readprop.go:171-176: the assembled result and the decoder's error. -/
def Dec.readPropertyFinish (id : ObjectID) (prop : Property) : D (PropertyData × Option GoErr) := do
  let err ← Dec.error
  pure ({ object := { id := id, properties := [prop] } }, err)

/-- encoding/readprop.go:115-176: what follows the property identifier `typ`;
`tag`, `m` are the last tag read. -/
def Dec.readPropertyTail (fuel : Nat) (id : ObjectID) (typ : UInt32) (tag m : UInt8) :
    D (PropertyData × Option GoErr) := do
  let n ← Dec.len
  let (tag, m) ← Dec.optTagNumber (decide (n ≠ 0)) tag m
  let n ← Dec.len
  if n ≠ 0 ∨ tag ≥ 2 then
    let (idx, openTag) ← Dec.readPropertyIndex tag m
    if openTag = 3 then
      let (l, err) ← Dec.readPropertyValues fuel []
      if err.isSome then pure ({ object := { id := id } }, err)
      else Dec.readPropertyFinish id { typ := typ, arrayIndex := idx, data := unlist l }
    else Dec.readPropertyFinish id { typ := typ, arrayIndex := idx }
  else Dec.readPropertyFinish id { typ := typ, arrayIndex := arrayAll }

/-- encoding/readprop.go:79-177 `ReadProperty` into a zero `PropertyData`. -/
def Dec.readProperty (fuel : Nat) : D (PropertyData × Option GoErr) := do
  let n ← Dec.len
  if n < 7 then pure ({}, some .missingParameters)
  else
    let (tag, m) ← Dec.tagNumber
    if tag ≠ 0 then pure ({}, some (.incorrectTag 0 tag))
    else if ¬ isContextSpecific m then pure ({}, some (.other 2))
    else
      let id ← Dec.objectId
      let (tag, m) ← Dec.tagNumber
      if tag ≠ 1 then pure ({ object := { id := id } }, some (.incorrectTag 1 tag))
      else
        let v ← Dec.value m
        let typ ← Dec.enumerated v.toNat
        Dec.readPropertyTail fuel id typ tag m

/-- encoding/writeprop.go:43-53 `pointTypeBOBV`: BinaryOutput = 4, BinaryValue = 5,
PROP_PRESENT_VALUE = 85. -/
def pointTypeBOBV (o : Object) : Bool :=
  match o.properties with
  | p :: _ => (o.id.typ = 5 ∨ o.id.typ = 4) ∧ p.typ = 85
  | [] => false

/-- encoding/writeprop.go:34-38, encoder.go:193-196: a context-tagged priority,
unless it is Normal (0). -/
def Enc.optPriority (e : Enc) (tag p : UInt8) : Enc :=
  if p ≠ 0 then e.contextUnsigned tag p.toUInt32 else e

/-- encoding/writeprop.go:8-40 `WriteProperty`. -/
def Enc.writeProperty (e : Enc) (invoke : UInt8) (data : PropertyData) :
    Outcome (Enc × Option GoErr) := do
  let e := (e.apdu (requestHeader 15 invoke)).1
  let (e, tagId, err) ← e.readPropertyHeader 0 data.object
  if err.isSome then pure (e, err)
  else
    match data.object.properties with
    | [] => .panic .indexOutOfRange
    | prop :: _ =>
      let e := e.openingTag tagId
      let e ← e.appData' prop.data (pointTypeBOBV data.object)
      let e := e.closingTag tagId
      let e := e.optPriority (tagId + 1) prop.priority
      pure (e, e.err)

/-- encoding/encoder.go:184-196: the value of one property of a write request. -/
def Enc.propertyValue (e : Enc) (write : Bool) (p : Property) : Outcome Enc :=
  if write then do
    let e := e.openingTag 2
    let e ← e.appData' p.data false
    let e := e.closingTag 2
    pure (e.optPriority 2 p.priority)
  else .ok e

/-- encoding/encoder.go:174-201 `properties`; the recorded error is returned and
dropped by the caller. -/
def Enc.properties (e : Enc) (write : Bool) : List Property → Outcome Enc
  | [] => .ok e
  | p :: ps => do
    let e := e.contextEnumerated 0 p.typ
    let e := e.optIndex 1 p.arrayIndex
    let e ← e.propertyValue write p
    Enc.properties e write ps

/-- encoding/encoder.go:159-172 `objects`. -/
def Enc.objects (e : Enc) (write : Bool) : List Object → Outcome Enc
  | [] => .ok e
  | o :: os => do
    let e := e.contextObjectID 0 o.id
    let e := e.openingTag 1
    let e ← e.properties write o.properties
    let e := e.closingTag 1
    Enc.objects e write os

/-- encoding/readmultiple.go:7-23 `ReadMultipleProperty`. -/
def Enc.readMultiple (e : Enc) (invoke : UInt8) (objects : List Object) :
    Outcome (Enc × Option GoErr) := do
  let e := (e.apdu (requestHeader 14 invoke)).1
  let e ← e.objects false objects
  pure (e, e.err)

/-- encoding/writemultiple.go:6-22 `WriteMultiProperty`. -/
def Enc.writeMultiple (e : Enc) (invoke : UInt8) (objects : List Object) :
    Outcome (Enc × Option GoErr) := do
  let e := (e.apdu (requestHeader 16 invoke)).1
  let e ← e.objects true objects
  pure (e, e.err)

end Bac
