import Verif.Model.Messages
/-!
# btypes/address.go, device.go:249-283: addresses and frames
-/

namespace Bac

/-- btypes/address.go:20-25 `IsBroadcast`. -/
def Address.isBroadcast (a : Address) : Bool := a.net = 0xFFFF || a.macLen = 0

/-- btypes/address.go:28-33 `SetLength`. -/
def Address.setLength (a : Address) : Address :=
  if a.adr.length > 0 then { a with len := 1 } else a

/-- btypes/address.go:35-41 `SetBroadcast`. -/
def Address.setBroadcast (a : Address) (b : Bool) : Address :=
  if b then { a with macLen := 0 } else { a with macLen := UInt8.ofNat a.mac.length }

/-- btypes/address.go:45-50 `IsSubBroadcast`. -/
def Address.isSubBroadcast (a : Address) : Bool := a.net > 0 && a.len = 0

/-- btypes/address.go:53-58 `IsUnicast`. -/
def Address.isUnicast (a : Address) : Bool := a.macLen = 6

/-- device.go:243-246 `SetBroadcastType`. -/
structure SetBroadcastType where
  set : Bool := false
  bacFunc : UInt8 := 0
  deriving DecidableEq, Repr, Inhabited

/-- device.go:255-272: the function octet of the frame header. -/
def sendFunction (dest : Address) (bt : Option SetBroadcastType) : UInt8 :=
  let f : UInt8 :=
    if dest.adr.length > 0 then 10
    else if dest.isBroadcast || dest.isSubBroadcast then 11
    else 10
  match bt with
  | some b => if b.set then b.bacFunc else f
  | none => f

/-- device.go:249-280 `client.Send` up to the hand-over to the data link: the
bytes of the datagram, or the error of the frame encoder.  `uint16(4+len)` wraps. -/
def sendFrame (dest : Address) (data : List UInt8) (bt : Option SetBroadcastType) :
    Except GoErr (List UInt8) :=
  let header : BVLC :=
    { typ := 0x81, function := sendFunction dest bt,
      length := UInt16.ofNat (4 + data.length), data := data }
  let (e, err) := Enc.new.bvlc header
  match err with
  | some err => .error err
  | none => .ok e.buf

end Bac
