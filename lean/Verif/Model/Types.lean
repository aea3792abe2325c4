import Verif.Model.Base
/-!
# Data types (package btypes)
-/

namespace Bac

/-- btypes/object.go:108-114 `ObjectID` (`ObjectType` is uint16, `ObjectInstance` uint32). -/
structure ObjectID where
  typ : UInt16
  inst : UInt32
  deriving DecidableEq, Repr, Inhabited

/-- btypes/bitstring.go:7-10 `BitString`. -/
structure BitString where
  bitUsed : UInt8
  value : List UInt8
  deriving DecidableEq, Repr, Inhabited

/-- btypes/datetime.go:16-27 `Date`.  The five boolean fields are never set by
the modelled code and are omitted. Go `int` is `Int`. -/
structure Date where
  year : Int := 0
  month : Int := 0
  day : Int := 0
  dow : Int := 0
  deriving DecidableEq, Repr, Inhabited

/-- btypes/datetime.go:29-34 `Time`. -/
structure Time where
  hour : Int := 0
  minute : Int := 0
  second : Int := 0
  millisecond : Int := 0
  deriving DecidableEq, Repr, Inhabited

/-- A Go `interface{}` holding one value of the kinds the library produces or
accepts.  `nil` is the nil interface; `unsupported n` stands for a value of any
other Go type (int, []byte passed by a caller, a struct, ...).
`octets` is `[]byte`, `str` is a Go string as its bytes, `bits` is
`*btypes.BitString` (possibly a nil pointer), `datetime` is `*btypes.DataTime`.
`real`/`double` carry the IEEE bit pattern.  The kinds of encoding/appdata.go:68-183. -/
inductive Scalar where
  | nil
  | null
  | bool (b : Bool)
  | uint (v : UInt32)
  | int (v : Int32)
  | real (bits : UInt32)
  | double (bits : UInt64)
  | octets (b : List UInt8)
  | str (b : List UInt8)
  | bits (b : Option BitString)
  | enum (v : UInt32)
  | date (d : Date)
  | time (t : Time)
  | datetime (d : Date) (t : Time)
  | objId (id : ObjectID)
  | unsupported (n : Nat)
  deriving DecidableEq, Repr, Inhabited

/-- `btypes.Property.Data`: one value, or a `[]interface{}` of values.  btypes/property.go:628-633. -/
inductive Value where
  | one (s : Scalar)
  | many (l : List Scalar)
  deriving DecidableEq, Repr, Inhabited

/-- btypes/property.go `Property` (PropertyType is uint32, Priority a byte). -/
structure Property where
  typ : UInt32 := 0
  arrayIndex : UInt32 := 0
  data : Value := .one .nil
  priority : UInt8 := 0
  deriving DecidableEq, Repr, Inhabited

/-- btypes/object.go:120-125 `Object`; a Go string is its bytes. -/
structure Object where
  name : List UInt8 := []
  description : List UInt8 := []
  id : ObjectID := ⟨0, 0⟩
  properties : List Property := []
  deriving DecidableEq, Repr, Inhabited

/-- btypes/address.go:8-14 `Address`. -/
structure Address where
  net : UInt16 := 0
  len : UInt8 := 0
  macLen : UInt8 := 0
  mac : List UInt8 := []
  adr : List UInt8 := []
  deriving DecidableEq, Repr, Inhabited

/-- encoding/const.go:24-26, btypes/const.go:11 `ArrayAll`. -/
def arrayAll : UInt32 := 0xFFFFFFFF

/-- encoding/const.go:3, btypes/const.go:4 `MaxInstance`. -/
def maxInstance : UInt32 := 0x3FFFFF

/-- encoding/object.go:3 `MaxObject`. -/
def maxObject : UInt32 := 0x3FF

/-- encoding/const.go:5 `MaxPropertyID`. -/
def maxPropertyID : UInt32 := 4194303

end Bac
