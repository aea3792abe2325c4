import Verif.Model.Network
import Verif.Model.Names
/-!
# cmd/cmd/writeprop.go: the command write

Package cmd does not compile at this commit (cmd/cmd/readprop.go:53 calls `NetworkClose`
without its argument); this is the text of the function.
-/

namespace Bac

/-- The functions of package strconv that the command uses, on arbitrary texts: `Atoi`
(none: an error), and what `uint32(f)`, `float32(f)` (bits) and `f` (bits) are for
`f, err = ParseFloat(text, _)`, with whether `err` is nil.  cmd/cmd/writeprop.go:100, 157-164. -/
structure Parsers where
  atoi : List Nat → Option Int
  uint32 : List UInt8 → UInt32 × Bool
  float32 : List UInt8 → UInt32 × Bool
  float64 : List UInt8 → UInt64 × Bool

/-- The flags (cmd/cmd/writeprop.go:28-62, cmd/cmd/readprop.go:17-32).  The text of the IP
address is the address it denotes; flags not used by the command are left out. -/
structure WriteFlags where
  ip : Host
  port : Int := 47808
  network : Int := 0
  mstp : Int := 0
  objectId : Int := 1234
  objectType : Int := 8
  property : List Nat
  index : UInt32 := arrayAll
  value : List UInt8 := []
  priority : Nat := 0
  isNull : Bool := false

/-- cmd/cmd/writeprop.go:78-96; `ip2bytes.New` does not fail. -/
def WriteFlags.dest (f : WriteFlags) : Device :=
  { addr := { net := UInt16.ofInt f.network, mac := ipBytes f.ip (UInt16.ofInt f.port),
              adr := [UInt8.ofInt f.mstp] } }

/-- cmd/cmd/writeprop.go:98-104.  The `err` that `Get` is assigned to is the one of the
`if`, so line 110 never sees it; `Get` returns 0 with an error. -/
def WriteFlags.prop (t : Parsers) (f : WriteFlags) : UInt32 :=
  match t.atoi f.property with
  | some i => UInt32.ofInt i
  | none => (propertyGet f.property).getD 0

/-- cmd/cmd/writeprop.go:106-108; btypes/property.go:619-626 `IsDeviceProperty` (only
PropObjectList). -/
def WriteFlags.objType (t : Parsers) (f : WriteFlags) : Int :=
  if f.prop t = 76 then 8 else f.objectType

/-- cmd/cmd/writeprop.go:114-128, and 175. -/
def WriteFlags.request (t : Parsers) (f : WriteFlags) (data : Value) : PropertyData :=
  { object := { id := ⟨UInt16.ofInt (f.objType t), UInt32.ofInt f.objectId⟩,
                properties := [⟨f.prop t, f.index, data, UInt8.ofNat f.priority⟩] } }

/-- cmd/cmd/writeprop.go:154-172: the value to write, by the type of the value read; an
error is only logged. -/
def WriteFlags.convert (t : Parsers) (f : WriteFlags) : Value → Value
  | .one (.uint _) => .one (.uint (t.uint32 f.value).1)
  | .one (.real _) => .one (.real (t.float32 f.value).1)
  | .one (.double _) => .one (.double (t.float64 f.value).1)
  | .one (.str _) => .one (.str f.value)
  | _ => .one .nil

/-- How the command ends: `log.Fatal` (the process exits), a return without writing, or a
return after `WriteProperty`, whose error is logged.  cmd/cmd/writeprop.go:110-112, 139-152, 177-180. -/
inductive CmdEnd where
  | fatal
  | nothing
  | written (r : Except CallErr Unit)
  deriving Repr

/-- cmd/cmd/writeprop.go:175-180. -/
def WriteFlags.write (t : Parsers) (f : WriteFlags) (my : Address) (data : Value)
    (invoke : Option UInt8) (script : Nat → Attempt) : List Sent × Outcome CmdEnd :=
  let w := clientWriteProperty my f.dest (f.request t data) invoke script
  (w.1, w.2.bind fun r => .ok (.written r))

/-- cmd/cmd/writeprop.go:98-181: `rid`, `rs` are the invoke id and the events of the read,
`wid`, `ws` those of the write. -/
def writeCommand (fuel : Nat) (my : Address) (t : Parsers) (f : WriteFlags)
    (rid wid : Option UInt8) (rs ws : Nat → Attempt) : List Sent × Outcome CmdEnd :=
  if f.isNull then f.write t my (.one .null) wid ws
  else
    let r := clientReadProperty fuel my f.dest (f.request t (.one .nil)) rid rs
    match r.2 with
    | .panic k => (r.1, .panic k)
    | .diverge => (r.1, .diverge)
    | .ok (.error _) => (r.1, .ok .fatal)
    | .ok (.ok out) =>
      match out.object.properties with
      | [] => (r.1, .ok .nothing)
      | p :: _ =>
        if f.value = [] then (r.1, .ok .fatal)
        else
          let w := f.write t my (f.convert t p.data) wid ws
          (r.1 ++ w.1, w.2)

end Bac
