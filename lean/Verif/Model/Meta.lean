import Verif.Model.Messages
/-!
# encoding/npdu.go and encoding/apdu.go: the accessors of the two control octets

Each method is one operation on an octet; a history is a list of operations.
-/

namespace Bac.Meta

/-- encoding/npdu.go:143-197: the setters of `NPDUMetadata`. -/
inductive NetOp where
  | networkMessage (b : Bool)
  | destination (b : Bool)
  | source (b : Bool)
  | reply (b : Bool)
  | priority (p : UInt8)
  deriving DecidableEq, Repr

/-- encoding/npdu.go:158-160, 169-173, 179-181, 187-189, 195-197; `SetPriority` clears nothing
(the line that would is commented out). -/
def NetOp.apply (m : UInt8) : NetOp → UInt8
  | .networkMessage b => setInfoMask m b 0x80
  | .destination b => setInfoMask m b 0x20
  | .source b => setInfoMask m b 0x08
  | .reply b => setInfoMask m b 0x04
  | .priority p => m ||| p

/-- encoding/npdu.go:154-156, 175-177, 183-185, 191-193: the flags that can be read. -/
inductive NetFlag where
  | networkMessage | destination | source | reply
  deriving DecidableEq, Repr

/-- encoding/npdu.go:136-140: the masks. -/
def NetFlag.mask : NetFlag → UInt8
  | .networkMessage => 0x80
  | .destination => 0x20
  | .source => 0x08
  | .reply => 0x04

/-- encoding/npdu.go:154-156, 175-177, 183-185, 191-193. -/
def NetFlag.get (m : UInt8) (f : NetFlag) : Bool := checkMask m f.mask

/-- encoding/npdu.go:163-166 `Priority`. -/
def netPriority (m : UInt8) : UInt8 := m &&& 3

/-- encoding/apdu.go:206-221: the setters of `APDUMetadata`. -/
inductive PduOp where
  | segmented (b : Bool)
  | more (b : Bool)
  | accepted (b : Bool)
  | type (t : UInt8)
  deriving DecidableEq, Repr

/-- encoding/apdu.go:206-221; `setDataType` keeps the upper half, the old type, and clears the
lower one, the flags. -/
def PduOp.apply (m : UInt8) : PduOp → UInt8
  | .segmented b => setInfoMask m b 0x08
  | .more b => setInfoMask m b 0x04
  | .accepted b => setInfoMask m b 0x02
  | .type t => (m &&& 0xF0) ||| t

/-- encoding/apdu.go:194-204: the flags that can be read. -/
inductive PduFlag where
  | segmented | more | accepted
  deriving DecidableEq, Repr

/-- encoding/apdu.go:178-183: the masks. -/
def PduFlag.mask : PduFlag → UInt8
  | .segmented => 0x08
  | .more => 0x04
  | .accepted => 0x02

/-- encoding/apdu.go:190-204. -/
def PduFlag.get (m : UInt8) (f : PduFlag) : Bool := checkMask m f.mask

/-- encoding/apdu.go:222-225 `DataType`. -/
def pduType (m : UInt8) : UInt8 := 0xF0 &&& m

end Bac.Meta
