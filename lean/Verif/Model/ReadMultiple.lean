import Verif.Model.Services
/-!
# encoding/readmultipleack.go, context_tag.go: ReadPropertyMultiple acknowledgements
-/

namespace Bac

/-! ## Encoder -/

/-- `e.write(data)` of encoding/encoder.go for an `interface{}` (readmultipleack.go:57,60):
`binary.Write` with the dynamic type.  `ok` octets, `error` for a type without a
fixed size, panic for the nil interface and a nil pointer (`Type` of the zero `reflect.Value`).
A `*BitString`, `*DataTime`, `string` or list has no fixed size; `Date` and `Time`
contain `int` fields, which have none either.  `unsupported` stands for such a type. -/
def binaryWrite : Value → Outcome (Except GoErr (List UInt8))
  | .many _ => .ok (.error .binaryInvalidType)
  | .one s =>
    match s with
    | .nil => .panic .nilDeref
    | .bits none => .panic .nilDeref
    | .null => .ok (.ok [])
    | .bool b => .ok (.ok [if b then 1 else 0])
    | .uint v => .ok (.ok (be32 v))
    | .int v => .ok (.ok (be32 v.toUInt32))
    | .real v => .ok (.ok (be32 v))
    | .double v => .ok (.ok (be64 v))
    | .octets l => .ok (.ok l)
    | .enum v => .ok (.ok (be32 v))
    | .objId id => .ok (.ok (be16 id.typ ++ be32 id.inst))
    | _ => .ok (.error .binaryInvalidType)

/-- encoding/encoder.go `write` of an `interface{}`: nothing after an error. -/
def Enc.writeValue (e : Enc) (v : Value) : Outcome Enc :=
  match e.err with
  | some _ => .ok e
  | none => do
    match ← binaryWrite v with
    | .ok bs => pure (e.write bs)
    | .error err => pure { e with err := some err }

/-- encoding/readmultipleack.go:40-63 `propertiesWithData`; the value is written
inside the brackets and once more after them. -/
def Enc.propertiesWithData (e : Enc) : List Property → Outcome Enc
  | [] => .ok e
  | p :: ps => do
    let e := e.contextEnumerated 2 p.typ
    let e := e.optIndex 3 p.arrayIndex
    let e := e.openingTag 4
    let e ← e.writeValue p.data
    let e := e.closingTag 4
    let e ← e.writeValue p.data
    Enc.propertiesWithData e ps

/-- encoding/readmultipleack.go:23-38 `objectsWithData`. -/
def Enc.objectsWithData (e : Enc) : List Object → Outcome Enc
  | [] => .ok e
  | o :: os => do
    let e := e.contextObjectID 0 o.id
    let e := e.openingTag 1
    let e ← e.propertiesWithData o.properties
    let e := e.closingTag 1
    Enc.objectsWithData e os

/-- encoding/readmultipleack.go:8-21 `ReadMultiplePropertyAck`. -/
def Enc.readMultipleAck (e : Enc) (invoke : UInt8) (objects : List Object) :
    Outcome (Enc × Option GoErr) := do
  let e := (e.apdu { dataType := 0x30, service := 14, maxSegs := 0, maxApdu := 0,
                     invokeId := invoke }).1
  let e ← e.objectsWithData objects
  pure (e, e.err)

/-! ## Decoder -/

/-- encoding/context_tag.go:7-97 `tagTypeInContext`: the application type of a
context-tagged element of some properties (numbers from btypes/property.go). -/
def tagTypeInContext (prop : UInt32) (tag : UInt8) : UInt8 :=
  match prop.toNat with
  | 214 => if tag = 0 ∨ tag = 1 then 2 else if tag = 2 then 4 else tag
  | 2 => if tag = 0 ∨ tag = 1 then 12 else if tag = 2 then 9
      else if tag = 3 ∨ tag = 5 ∨ tag = 6 then 2 else if tag = 7 ∨ tag = 8 then 1 else tag
  | 53 => if tag = 0 then 12 else tag
  | 38 => if tag = 1 then 12 else if tag = 3 then 2 else tag
  | 132 => if tag = 0 ∨ tag = 3 then 12 else if tag = 1 then 9 else if tag = 2 then 2 else tag
  | 211 => if tag = 0 ∨ tag = 1 then 12 else tag
  | 102 => if tag = 0 then 12 else tag
  | 152 => if tag = 2 then 1 else if tag = 3 then 2 else if tag = 4 then 4 else tag
  | _ => tag

/-- encoding/readmultipleack.go:73-96 `bacError`: error or (class, code). -/
def Dec.bacError : D (Except GoErr (UInt32 × UInt32)) := do
  let (a, err) ← Dec.appData
  match err, a with
  | some e, _ => pure (.error e)
  | none, .uint cls =>
    let (b, err) ← Dec.appData
    match err, b with
    | some e, _ => pure (.error e)
    | none, .uint code => pure (.ok (cls, code))
    | none, _ => pure (.error (.other 3))
  | none, _ => pure (.error (.other 3))

/-- encoding/readmultipleack.go:168-174: one element of a date-time. -/
def Dec.dateTimeField (tag : UInt8) (len : UInt32) (dt : Date × Time) : D (Date × Time) :=
  if tag = 10 then do
    let x ← Dec.date dt.1 len.toNat
    pure (x, dt.2)
  else if tag = 11 then do
    let x ← Dec.time dt.2 len.toNat
    pure (dt.1, x)
  else if len > 0 then do
    let _ ← Dec.skip len.toNat
    pure dt
  else pure dt

/-- encoding/readmultipleack.go:164-175: the loop over a date-time; TimeStampDatetime = 2. -/
def Dec.dateTimeLoop : Nat → Date × Time → D (Date × Time)
  | 0, _ => D.diverge
  | n + 1, dt => do
    let (tag, m, len) ← Dec.tagNumberAndValue
    if isClosing m ∧ tag = 2 then pure dt
    else
      let dt ← Dec.dateTimeField tag len dt
      Dec.dateTimeLoop n dt

/-- What the value loop accumulates: the values and the object list (line 180
appends to it inside the loop).  encoding/readmultipleack.go:158-206. -/
structure RpmAcc where
  values : List Scalar
  objects : List Object
  deriving DecidableEq, Repr, Inhabited

/-- encoding/readmultipleack.go:158-206: one element of a value list, whose tag
has been read.  `obj` is the object under construction. -/
def Dec.rpmElement (fuel : Nat) (typ : UInt32) (obj : Object) (tag m : UInt8) (acc : RpmAcc) :
    D (RpmAcc × Option GoErr) :=
  if isContextSpecific m then
    if isClosing m then do
      let _ ← Dec.unreadByte
      pure (acc, none)
    else if isOpening m then
      if tag = 2 then do
        let dt ← Dec.dateTimeLoop fuel ({}, {})
        pure ({ acc with values := acc.values ++ [.datetime dt.1 dt.2] }, none)
      else pure (acc, none)
    else do
      let acc := { acc with objects := acc.objects ++ [obj] }
      let len ← Dec.value m
      if tagTypeInContext typ tag = 16 then
        if len > 0 then do
          let err ← Dec.rawReadErr len.toNat
          pure (acc, err)
        else pure (acc, none)
      else do
        let (s, err) ← Dec.appDataOfTag (tagTypeInContext typ tag) len.toNat
        if err.isSome then pure (acc, err)
        else pure ({ acc with values := acc.values ++ [s] }, none)
  else do
    let len ← Dec.value m
    let (s, err) ← Dec.appDataOfTag tag len.toNat
    if err.isSome then pure (acc, err)
    else pure ({ acc with values := acc.values ++ [s] }, none)

/-- encoding/readmultipleack.go:157-214: the value loop; `fuel` is for the inner loop. -/
def Dec.rpmValues (fuel : Nat) (typ : UInt32) (obj : Object) :
    Nat → UInt8 → UInt8 → RpmAcc → D (RpmAcc × Option GoErr)
  | 0, _, _, _ => D.diverge
  | n + 1, tag, m, acc => do
    let (acc, err) ← Dec.rpmElement fuel typ obj tag m acc
    if err.isSome then pure (acc, err)
    else
      let (tag, m) ← Dec.tagNumber
      if isClosing m ∧ tag = 4 then pure (acc, none)
      else Dec.rpmValues fuel typ obj n tag m acc

/-- encoding/readmultipleack.go:138-148: the optional array index; `none` when the
tag is not a context tag.  Returns index and the next tag. -/
def Dec.rpmIndex (tag m : UInt8) : D (Option (UInt32 × UInt8 × UInt8)) :=
  if tag = 3 then
    if ¬ isContextSpecific m then pure none
    else do
      let len ← Dec.value m
      let idx ← Dec.unsigned len.toNat
      let (tag, m) ← Dec.tagNumber
      pure (some (idx, tag, m))
  else pure (some (arrayAll, tag, m))

/-- What happens after the values or error of one property: the next round of
the property loop (`next`), or the function returns (`stop`).  encoding/readmultipleack.go:151-237. -/
inductive RpmNext where
  | next (tag m : UInt8) (len : UInt32) (obj : Object) (objects : List Object)
  | stop (objects : List Object) (err : Option GoErr)
  deriving DecidableEq, Repr

/-- encoding/readmultipleack.go:151-237: values or error of a property. -/
def Dec.rpmResult (fuel : Nat) (typ idx : UInt32) (tag m : UInt8) (obj : Object)
    (objects : List Object) : D RpmNext :=
  if tag = 4 ∧ isOpening m then do
    let (tag, m) ← Dec.tagNumber
    let err ← Dec.error
    if err.isSome then pure (.stop objects err)
    else
      let (acc, err) ← Dec.rpmValues fuel typ obj fuel tag m ⟨[], objects⟩
      if err.isSome then pure (.stop acc.objects err)
      else
        let obj := { obj with properties := obj.properties ++
          [{ typ := typ, arrayIndex := idx, data := unlist acc.values }] }
        let (tag, m, len) ← Dec.tagNumberAndValue
        pure (.next tag m len obj acc.objects)
  else if tag = 5 ∧ isOpening m then do
    match ← Dec.bacError with
    | .error e => pure (.stop objects (some e))
    | .ok (cls, code) =>
      let _ ← Dec.tagNumber
      pure (.stop objects (some (.accessError cls code)))
  else pure (.stop objects (some (.incorrectTag 4 tag)))

/-- encoding/readmultipleack.go:127-237: one round of the property loop.
`continue` (line 137) keeps the old length. -/
def Dec.rpmProperty (fuel : Nat) (m : UInt8) (len : UInt32) (obj : Object)
    (objects : List Object) : D RpmNext :=
  if ¬ isContextSpecific m then pure (.stop objects (some .wrongTagType))
  else do
    let typ ← Dec.enumerated len.toNat
    let (tag, m) ← Dec.tagNumber
    if tag = 2 then pure (.next tag m len obj objects)
    else
      match ← Dec.rpmIndex tag m with
      | none => pure (.stop objects (some .wrongTagType))
      | some (idx, tag, m) => Dec.rpmResult fuel typ idx tag m obj objects

/-- encoding/readmultipleack.go:126-238: the property loop; `.inl` is the object
with its properties and the object list, `.inr` an early return. -/
def Dec.rpmProperties (fuel : Nat) : Nat → UInt8 → UInt8 → UInt32 → Object → List Object →
    D (Sum (Object × List Object) (List Object × Option GoErr))
  | 0, _, _, _, _, _ => D.diverge
  | n + 1, tag, m, len, obj, objects => do
    let l ← Dec.len
    if l > 0 ∧ tag = 2 ∧ ¬ isClosing m then
      match ← Dec.rpmProperty fuel m len obj objects with
      | .stop objects err => pure (.inr (objects, err))
      | .next tag m len obj objects => Dec.rpmProperties fuel n tag m len obj objects
    else pure (.inl (obj, objects))

/-- encoding/readmultipleack.go:98-243 `objectsWithData`: object list and returned
error.  The identifier of an object is overwritten in every round. -/
def Dec.rpmObjects (fuel : Nat) : Nat → List Object → D (List Object × Option GoErr)
  | 0, _ => D.diverge
  | n + 1, objects => do
    let err ← Dec.error
    let l ← Dec.len
    if err.isNone ∧ l > 0 then
      let (tag, m, _) ← Dec.tagNumberAndValue
      if tag ≠ 0 then pure (objects, some (.incorrectTag 0 tag))
      else if ¬ isContextSpecific m then pure (objects, some .wrongTagType)
      else
        let id ← Dec.objectId
        let (tag, m) ← Dec.tagNumber
        if tag ≠ 1 then pure (objects, some (.incorrectTag 1 tag))
        else if ¬ isOpening m then pure (objects, some .wrongTagType)
        else
          let (tag, m, len) ← Dec.tagNumberAndValue
          if tag ≠ 2 then pure (objects, some (.incorrectTag 2 tag))
          else
            match ← Dec.rpmProperties fuel fuel tag m len { id := id } objects with
            | .inr r => pure r
            | .inl (obj, objects) => Dec.rpmObjects fuel n (objects ++ [obj])
    else pure (objects, err)

/-- encoding/readmultipleack.go:65-71 `ReadMultiplePropertyAck` into an empty list.
Every loop may run `fuel` times. -/
def Dec.readMultipleAck (fuel : Nat) : D (List Object × Option GoErr) := do
  let (objects, err) ← Dec.rpmObjects fuel fuel []
  if err.isSome then
    D.modify fun d => { d with err := err }
    pure (objects, err)
  else
    let err ← Dec.error
    pure (objects, err)

end Bac
