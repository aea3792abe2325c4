import Verif.Model.Types
/-!
# encoding/encoder.go, encoding/general.go: the encoder
-/

namespace Bac

/-! ## Tag meta byte, encoding/general.go:29-74 -/

/-- encoding/general.go:5-15 `valueLength`. -/
def valueLength (v : UInt32) : Nat :=
  if v < 0x100 then 1
  else if v < 0x10000 then 2
  else if v < 0x1000000 then 3
  else 4

/-- encoding/general.go:61-63 `setContextSpecific`. -/
def setContextSpecific (t : UInt8) : UInt8 := t ||| 0x08
/-- encoding/general.go:39-42 `setClosing`. -/
def setClosing (t : UInt8) : UInt8 := setContextSpecific t ||| 7
/-- encoding/general.go:48-51 `setOpening`. -/
def setOpening (t : UInt8) : UInt8 := setContextSpecific t ||| 6
/-- encoding/general.go:44-46 `isClosing`. -/
def isClosing (t : UInt8) : Bool := (t &&& 7) == 7
/-- encoding/general.go:53-55 `isOpening` (true for closing tags as well). -/
def isOpening (t : UInt8) : Bool := (t &&& 6) == 6
/-- encoding/general.go:65-67 `isContextSpecific`. -/
def isContextSpecific (t : UInt8) : Bool := decide ((t &&& 0x08) > 0)
/-- encoding/general.go:69-71 `isExtendedValue`. -/
def isExtendedValue (t : UInt8) : Bool := (t &&& 7) == 5
/-- encoding/general.go:72-74 `isExtendedTagNumber`. -/
def isExtendedTagNumber (t : UInt8) : Bool := (t &&& 0xF0) == 0xF0

/-- encoding/general.go:78-86 `setInfoMask`. -/
def setInfoMask (inp : UInt8) (b : Bool) (mask : UInt8) : UInt8 :=
  if b then inp ||| mask else inp &&& (0xFF - mask)

/-- encoding/general.go:95-105: the segment loop; `i` counts up to 6. -/
def maxSegsLoop (maxSegs : Nat) : Nat → Nat → UInt8
  | 0, _ => 0
  | fuel + 1, i =>
    if maxSegs < 1 <<< (i + 1) then UInt8.ofNat (i <<< 4) else maxSegsLoop maxSegs fuel (i + 1)

/-- encoding/general.go:95-131 `encodeMaxSegsMaxApdu`; Go `uint` is `Nat`. -/
def encodeMaxSegsMaxApdu (maxSegs maxApdu : Nat) : UInt8 :=
  let octet := maxSegsLoop maxSegs 6 0
  let octet := if maxSegs = 64 then 0x60 else if maxSegs > 64 then 0x70 else octet
  if maxApdu ≤ 50 then octet ||| 0x00
  else if maxApdu ≤ 128 then octet ||| 0x01
  else if maxApdu ≤ 206 then octet ||| 0x02
  else if maxApdu ≤ 480 then octet ||| 0x03
  else if maxApdu ≤ 1024 then octet ||| 0x04
  else if maxApdu ≤ 1476 then octet ||| 0x05
  else octet

/-- encoding/general.go:139-156 `decodeMaxApdu`. -/
def decodeMaxApdu (a : UInt8) : Nat :=
  match (a &&& 0x0F).toNat with
  | 0 => 50
  | 1 => 128
  | 2 => 206
  | 3 => 480
  | 4 => 1024
  | 5 => 1476
  | _ => 0

/-- encoding/general.go:158-165 `decodeMaxSegs`. -/
def decodeMaxSegs (a : UInt8) : Nat :=
  let a := a >>> 4
  if a ≥ 7 then 65 else 1 <<< a.toNat

/-- encoding/general.go:167-172 `byteReverseBits`. -/
def byteReverseBits (c : UInt8) : UInt8 :=
  let c := ((c &&& 0xaa) >>> 1) ||| ((c &&& 0x55) <<< 1)
  let c := ((c &&& 0xcc) >>> 2) ||| ((c &&& 0x33) <<< 2)
  ((c &&& 0xf0) >>> 4) ||| ((c &&& 0x0f) <<< 4)

/-! ## The encoder -/

/-- encoding/encoder.go:11-14 `Encoder`: bytes written so far, and the error. -/
structure Enc where
  buf : List UInt8 := []
  err : Option GoErr := none
  deriving DecidableEq, Repr, Inhabited

namespace Enc

/-- encoding/encoder.go:16-22 `NewEncoder`. -/
def new : Enc := {}

/-- encoding/encoder.go:32-37 `write` for values of fixed size and byte slices;
`bs` is what `binary.Write` produces for the value. -/
def write (e : Enc) (bs : List UInt8) : Enc :=
  match e.err with
  | some _ => e
  | none => { e with buf := e.buf ++ bs }

/-- encoding/encoder.go:59-70 `tagNum`. -/
def tagNum (e : Enc) (meta_ num : UInt8) : Enc :=
  if num ≤ 14 then
    e.write [meta_ ||| (num <<< 4)]
  else
    (e.write [meta_ ||| 0xF0]).write [num]

/-- encoding/encoder.go:46-50 `openingTag`. -/
def openingTag (e : Enc) (num : UInt8) : Enc := e.tagNum (setOpening 0) num

/-- encoding/encoder.go:52-56 `closingTag`. -/
def closingTag (e : Enc) (num : UInt8) : Enc := e.tagNum (setClosing 0) num

end Enc

/-- encoding/types.go:14-22 `tagInfo`. -/
structure TagInfo where
  id : UInt8
  context : Bool := false
  value : UInt32 := 0
  opening : Bool := false
  closing : Bool := false
  deriving DecidableEq, Repr

namespace Enc

/-- encoding/encoder.go:72-115 `tag`. -/
def tag (e : Enc) (tg : TagInfo) : Enc :=
  let m : UInt8 := 0
  let m := if tg.context then setContextSpecific m else m
  let m := if tg.opening then setOpening m else m
  let m := if tg.closing then setClosing m else m
  let t := if tg.value ≤ 4 then m ||| tg.value.toUInt8 else m ||| 5
  let e := if tg.id ≤ 14 then e.write [t ||| (tg.id <<< 4)]
           else (e.write [t ||| 0xF0]).write [tg.id]
  if tg.value > 4 then
    if tg.value ≤ 253 then e.write [tg.value.toUInt8]
    else if tg.value ≤ 65535 then (e.write [254]).write (be16 tg.value.toUInt16)
    else (e.write [255]).write (be32 tg.value)
  else e

/-- encoding/encoder.go:119-123 `objectId`. -/
def objectId (e : Enc) (id : ObjectID) : Enc :=
  e.write (be32 (((id.typ.toUInt32 &&& maxObject) <<< 22) ||| (id.inst &&& maxInstance)))

/-- encoding/encoder.go:39-43 `contextObjectID`. -/
def contextObjectID (e : Enc) (tagNum : UInt8) (id : ObjectID) : Enc :=
  (e.tag { id := tagNum, context := true, value := 4 }).objectId id

/-- encoding/encoder.go:139-144 `unsigned24`. -/
def unsigned24 (e : Enc) (v : UInt32) : Enc :=
  ((e.write [((v &&& 0xFF0000) >>> 16).toUInt8]).write [((v &&& 0x00FF00) >>> 8).toUInt8]).write
    [(v &&& 0x0000FF).toUInt8]

/-- encoding/encoder.go:146-157 `unsigned`. -/
def unsigned (e : Enc) (v : UInt32) : Enc :=
  if v < 0x100 then e.write [v.toUInt8]
  else if v < 0x10000 then e.write (be16 v.toUInt16)
  else if v < 0x1000000 then e.unsigned24 v
  else e.write (be32 v)

/-- encoding/encoder.go:134-136 `enumerated`. -/
def enumerated (e : Enc) (v : UInt32) : Enc := e.unsigned v

/-- encoding/encoder.go:129-132 `contextUnsigned`. -/
def contextUnsigned (e : Enc) (tagNumber : UInt8) (v : UInt32) : Enc :=
  (e.tag { id := tagNumber, context := true, value := UInt32.ofNat (valueLength v) }).unsigned v

/-- encoding/encoder.go:125-127 `contextEnumerated`. -/
def contextEnumerated (e : Enc) (tagNumber : UInt8) (v : UInt32) : Enc :=
  e.contextUnsigned tagNumber v

/-- encoding/general.go:90-93 `maxSegsMaxApdu`. -/
def maxSegsMaxApdu (e : Enc) (maxSegs maxApdu : Nat) : Enc :=
  e.write [encodeMaxSegsMaxApdu maxSegs maxApdu]

/-- encoding/string.go:17-20 `string`; a Go string is its bytes. -/
def string (e : Enc) (s : List UInt8) : Enc := (e.write [0]).write s

/-- Go conversion `uint8(x)` of an `int` (low 8 bits).  encoding/date.go:36-42, 70-75. -/
def intToU8 (x : Int) : UInt8 := UInt8.ofInt x

/-- encoding/date.go:33-43 `date`; epochYear = 1990, UnspecifiedTime = 0xFF. -/
def date (e : Enc) (dt : Date) : Enc :=
  let e := if dt.year ≠ 0xFF then e.write [intToU8 (dt.year - 1990)] else e.write [intToU8 dt.year]
  ((e.write [intToU8 dt.month]).write [intToU8 dt.day]).write [intToU8 dt.dow]

/-- encoding/date.go:69-76 `time`; Go `/` truncates. -/
def time (e : Enc) (t : Time) : Enc :=
  (((e.write [intToU8 t.hour]).write [intToU8 t.minute]).write [intToU8 t.second]).write
    [intToU8 (t.millisecond.tdiv 10)]

/-- encoding/appdata.go:41-50 `boolean`. -/
def boolean (e : Enc) (x : Bool) : Enc :=
  e.tag { id := 1, context := false, value := if x then 1 else 0 }

/-- `e.err = err; return err` (encoding/appdata.go:85-88, 125-128). -/
def fail (e : Enc) (err : GoErr) : Outcome (Option GoErr × Enc) :=
  .ok (some err, { e with err := some err })

/-- encoding/appdata.go:68-131 `AppData`; the first component is the returned
error.  With `typeBVBO` the assertion `i.(uint32)` on line 77 panics for every
other dynamic type. `uint32(len(val)+1)` is the conversion of line 102. -/
def appData (e : Enc) (i : Value) (typeBVBO : Bool) : Outcome (Option GoErr × Enc) :=
  match i with
  | .one .null => .ok (none, e.tag { id := 0 })
  | _ =>
    if typeBVBO then
      match i with
      | .one (.uint v) =>
        .ok (none, (e.tag { id := 9, value := UInt32.ofNat (valueLength v) }).enumerated v)
      | _ => .panic .typeAssertion
    else
      match i with
      | .one (.real b) => .ok (none, (e.tag { id := 4, value := 4 }).write (be32 b))
      | .one (.double b) => .ok (none, (e.tag { id := 5, value := 4 }).write (be64 b))
      | .one (.bool b) => .ok (none, e.boolean b)
      | .one (.str s) =>
        .ok (none, (e.tag { id := 7, value := UInt32.ofNat (s.length + 1) }).string s)
      | .one (.uint v) =>
        .ok (none, (e.tag { id := 2, value := UInt32.ofNat (valueLength v) }).unsigned v)
      | .one (.int v) =>
        .ok (none, (e.tag { id := 3, value := UInt32.ofNat (valueLength v.toUInt32) }).unsigned
          v.toUInt32)
      | .one (.enum v) =>
        .ok (none, (e.tag { id := 9, value := UInt32.ofNat (valueLength v) }).enumerated v)
      | .one (.objId id) => .ok (none, (e.tag { id := 12, value := 4 }).objectId id)
      | _ => e.fail .unknownType

end Enc

end Bac
