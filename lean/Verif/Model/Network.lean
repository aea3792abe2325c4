import Verif.Model.Names
/-!
# Package network; btypes/priority, helpers/data, helpers/ipbytes, helpers/store, btypes.NewDevice

The functions of package network make one client call after the other.  What the client
returns for the n-th call is given by a function (`Reader`); `Wire.reader` is the one made
by the model of the client from what is received.  The calls made are recorded.  Logging
and printing are left out.
-/

namespace Bac

/-! ## helpers/data/data.go -/

/-- helpers/data/data.go:18-25 `ToArr`; the first result (ok) is never looked at.  Without
any property the index is out of range. -/
def toArr (d : PropertyData) : Outcome (List Scalar) :=
  match d.object.properties with
  | [] => .panic .indexOutOfRange
  | p :: _ =>
    match p.data with
    | .many l => .ok l
    | .one _ => .ok []

/-- helpers/data/data.go:36-43 `ToFloat32` (bit pattern). -/
def toFloat32 (d : PropertyData) : UInt32 :=
  match d.object.properties with
  | [] => 0
  | p :: _ =>
    match p.data with
    | .one (.real b) => b
    | _ => 0

/-- helpers/data/data.go:72-79 `ToUint32`. -/
def toUint32 (d : PropertyData) : UInt32 :=
  match d.object.properties with
  | [] => 0
  | p :: _ =>
    match p.data with
    | .one (.uint v) => v
    | _ => 0

/-- helpers/data/data.go:63-70 `ToStr`. -/
def toStr (d : PropertyData) : List UInt8 :=
  match d.object.properties with
  | [] => []
  | p :: _ =>
    match p.data with
    | .one (.str s) => s
    | _ => []

/-! ## btypes/priority/priority.go -/

/-- The Go conversion `float32(v)` of a uint32: round to nearest, ties to even; the
result is the IEEE bit pattern.  btypes/priority/priority.go:14-26. -/
def float32OfUInt32 (v : UInt32) : UInt32 :=
  let n := v.toNat
  if n = 0 then 0
  else
    let k := n.log2
    let q :=
      if k ≤ 23 then n * 2 ^ (23 - k)
      else
        let s := k - 23
        let q := n / 2 ^ s
        let r := n % 2 ^ s
        if 2 * r > 2 ^ s ∨ (2 * r = 2 ^ s ∧ q % 2 = 1) then q + 1 else q
    UInt32.ofNat ((127 + k) * 2 ^ 23 + (q - 2 ^ 23))

/-- btypes/priority/priority.go:66-83 `Float32`: sixteen optional bit patterns, P1 first. -/
abbrev Priorities := Fin 16 → Option UInt32

/-- btypes/priority/priority.go:14-26: what is stored for one entry.  The two branches on
the object type do the same.  `reflect.TypeOf(nil)` is a nil interface. -/
def priorityEntry (s : Scalar) : Outcome (Option UInt32) :=
  match s with
  | .nil => .panic .nilDeref
  | .null => .ok none
  | .uint v => .ok (some (float32OfUInt32 v))
  | _ => .panic .typeAssertion

/-- btypes/priority/priority.go:13-62: the loop from index `i`. -/
def priorityLoop : List Scalar → Nat → Priorities → Outcome Priorities
  | [], _, pri => .ok pri
  | s :: l, i, pri => do
    let v ← priorityEntry s
    priorityLoop l (i + 1) (fun j => if j.val = i then v else pri j)

/-- btypes/priority/priority.go:10-64 `BuildFloat32`. -/
def buildFloat32 (d : PropertyData) (_objType : UInt16) : Outcome Priorities := do
  let arr ← toArr d
  priorityLoop arr 0 (fun _ => none)

/-- btypes/priority/priority.go:85-135 `HighestFloat32`. -/
def highestFloat32 (p : Priorities) : Option UInt32 := (List.finRange 16).findSome? p

/-! ## btypes/device.go, helpers/ipbytes/ip.go -/

/-- btypes/device.go:19-35 `Device` as passed to and returned by `NewDevice`; the text of
the IP address is the address it denotes, if any. -/
structure BDevice where
  id : ObjectID := ⟨0, 0⟩
  deviceId : Int := 0
  ip : Host := .invalid
  port : Int := 0
  networkNumber : Int := 0
  macMSTP : Int := 0
  maxApdu : UInt32 := 0
  segmentation : UInt32 := 0
  vendor : UInt32 := 0
  addr : Address := {}
  deviceName : List UInt8 := []
  vendorName : List UInt8 := []
  deriving DecidableEq, Repr

/-- helpers/ipbytes/ip.go:12-26 `ip4toInt`, `pack32BinaryIP4`: four octets; text that is
not an IPv4 address gives the number 0. -/
def packIP4 (ip : Host) : List UInt8 :=
  match ip with
  | .v4 a b c d => [a, b, c, d]
  | .v6 o =>
    match to4 o with
    | [a, b, c, d] => [a, b, c, d]
    | _ => [0, 0, 0, 0]
  | .invalid => [0, 0, 0, 0]

/-- helpers/ipbytes/ip.go:33-41 `New`; writing to a buffer does not fail. -/
def ipBytes (ip : Host) (port : UInt16) : List UInt8 := packIP4 ip ++ be16 port

/-- btypes/device.go:63-97 `NewDevice`; the two checks only print.  Conversions of `int`
to smaller types truncate. -/
def newBDevice (d : BDevice) : BDevice :=
  let port := if d.port = 0 then 0xBAC0 else d.port
  { d with
    id := ⟨8, d.id.inst⟩,
    addr := { net := UInt16.ofInt d.networkNumber, mac := ipBytes d.ip (UInt16.ofInt port),
              adr := [UInt8.ofInt d.macMSTP] } }

/-- What the client calls use of a device (Model/Client.lean).  readprop.go:22-42. -/
def BDevice.target (d : BDevice) : Device := ⟨d.addr, d.maxApdu⟩

/-! ## network/device.go, network/store.go, helpers/store/init.go -/

/-- network/device.go:9-22 `Device`; `StoreID` and the client are left out. -/
structure NetDevice where
  ip : Host := .invalid
  port : Int := 0
  deviceId : Int := 0
  networkNumber : Int := 0
  macMSTP : Int := 0
  maxApdu : UInt32 := 0
  segmentation : UInt32 := 0
  deviceName : List UInt8 := []
  vendorName : List UInt8 := []
  dev : BDevice := {}
  deriving DecidableEq, Repr

/-- network/device.go:31-38, network/store.go:61-68: the device handed to
`btypes.NewDevice`; the port is not passed on. -/
def NetDevice.base (d : NetDevice) : BDevice :=
  { ip := d.ip, deviceId := d.deviceId, networkNumber := d.networkNumber, macMSTP := d.macMSTP,
    maxApdu := d.maxApdu, segmentation := d.segmentation }

/-- network/device.go:39-48, network/store.go:69-78: the device made. -/
def NetDevice.made (d : NetDevice) : NetDevice := { d with dev := newBDevice d.base }

/-- What a store (a go-cache without expiry) holds under a key: a network - with or
without a store of its own - or a device.  helpers/store/init.go:23-33. -/
inductive Entry where
  | network (hasStore : Bool)
  | device (d : NetDevice)
  deriving DecidableEq, Repr

/-- helpers/store/init.go:10-33 `Handler` by its contents; network/store.go:13-15 `Store`
whose handler may be nil. -/
abbrev Store := Option (List (List Nat × Entry))

/-- network/base.go:9-17 `Network`: the store, a pointer that may be nil. -/
structure Network where
  store : Option Store := none
  deriving DecidableEq, Repr

/-- The errors of package network.  network/err.go:6, network/points.go:148-152 and alike. -/
inductive NetErr where
  /-- network/err.go:6 -/
  | objectNil
  /-- network/points.go:148-152 -/
  | badPoint | badPriority
  /-- network/write.go:56 -/
  | badType
  /-- network/base.go:35, network/store.go:45 -/
  | noStore
  /-- network/store.go:52, 88 -/
  | notFound
  /-- an error of the client -/
  | call (e : CallErr)
  deriving DecidableEq, Repr

/-- network/device.go:25-53 `NewDevice`: the store afterwards and the device; without a
network both results are nil. -/
def newNetDevice (net : Option Network) (key : List Nat) (d : NetDevice) :
    Outcome (Option (Network × NetDevice)) :=
  match net with
  | none => .ok none
  | some net =>
    match net.store with
    | none => .panic .nilDeref
    | some none => .ok (some (net, d.made))
    | some (some m) => .ok (some (⟨some (some (mapSet key (.device d.made) m))⟩, d.made))

/-- network/store.go:25-47 `NewNetwork` after the client was opened: the network put into
the store has no store. -/
def storeNewNetwork (s : Store) (key : List Nat) : Store × Except NetErr Unit :=
  match s with
  | none => (none, .error .noStore)
  | some m => (some (mapSet key (.network false) m), .ok ())

/-- network/base.go:20-38 `New` after the client was opened: the network puts itself into
its store. -/
def newNetwork (net : Network) (key : List Nat) : Outcome (Except NetErr Network) :=
  match net.store with
  | none => .panic .nilDeref
  | some none => .ok (.error .noStore)
  | some (some m) => .ok (.ok ⟨some (some (mapSet key (.network true) m))⟩)

/-- network/store.go:49-56 `GetNetwork`: whether the network found has a store. -/
def storeGetNetwork (s : Store) (key : List Nat) : Outcome (Except NetErr Bool) :=
  match s with
  | none => .panic .nilDeref
  | some m =>
    match mapGet key m with
    | none => .ok (.error .notFound)
    | some (.network b) => .ok (.ok b)
    | some (.device _) => .panic .typeAssertion

/-- network/store.go:59-83 `UpdateDevice`. -/
def storeUpdateDevice (s : Store) (key : List Nat) (d : NetDevice) : Store × NetDevice :=
  match s with
  | none => (none, d.made)
  | some m => (some (mapSet key (.device d.made) m), d.made)

/-- network/store.go:85-92 `GetDevice`. -/
def storeGetDevice (s : Store) (key : List Nat) : Outcome (Except NetErr NetDevice) :=
  match s with
  | none => .panic .nilDeref
  | some m =>
    match mapGet key m with
    | none => .ok (.error .notFound)
    | some (.device d) => .ok (.ok d)
    | some (.network _) => .panic .typeAssertion

/-! ## Sequences of client calls -/

/-- What `ReadProperty` returns for the n-th call, by device and request.  device.go:31, readprop.go:13-77. -/
abbrev Reader := Nat → Device → PropertyData → Outcome (Except CallErr PropertyData)

/-- The calls made so far.  Not in the code: history of the calls of readprop.go:13-77. -/
abbrev Calls := List (Device × PropertyData)

/-- A function making client calls: it extends the list of calls.
The functions of network/points.go:36-226 and alike. -/
def N (α : Type) : Type := Calls → Calls × Outcome α

instance : Monad N where
  pure a := fun c => (c, .ok a)
  bind m f := fun c =>
    match m c with
    | (c, .ok a) => f a c
    | (c, .panic k) => (c, .panic k)
    | (c, .diverge) => (c, .diverge)

/-- A result without calls.  Not in the code. -/
def N.lift {α : Type} (x : Outcome α) : N α := fun c => (c, x)

/-- What the client meets in a sequence of calls: the transaction id of the n-th call and
what happens in its attempts.  readprop.go:16, 39-75. -/
structure Wire where
  my : Address := {}
  fuel : Nat := 0
  invoke : Nat → Option UInt8
  script : Nat → Nat → Attempt

/-- The client of Model/Client.lean as a `Reader`.  readprop.go:13-77. -/
def Wire.reader (w : Wire) : Reader := fun n dev rp =>
  (clientReadProperty w.fuel w.my dev rp (w.invoke n) (w.script n)).2

/-- One call of `ReadProperty`.  network/read.go:33-47, network/whois.go:54. -/
def N.readProperty (net : Reader) (dev : Device) (rp : PropertyData) : N (Except CallErr PropertyData) :=
  fun c => (c ++ [(dev, rp)], net c.length dev rp)

/-! ## network/read.go, network/write.go -/

/-- network/read.go:8-13 `Object`. -/
structure NetObject where
  inst : UInt32 := 0
  typ : UInt16 := 0
  prop : UInt32 := 0
  arrayIndex : UInt32 := 0
  deriving DecidableEq, Repr

/-- network/read.go:19-32. -/
def NetObject.request (o : NetObject) : PropertyData :=
  { object := { id := ⟨o.typ, o.inst⟩, properties := [{ typ := o.prop, arrayIndex := o.arrayIndex }] } }

/-- network/read.go:15-47 `Read`.  The data returned along with an error is empty
(readprop.go:18, 35, 41, 55, 59, 76). -/
def NetDevice.read (net : Reader) (d : NetDevice) (o : Option NetObject) : N (Except NetErr PropertyData) :=
  match o with
  | none => pure (.error .objectNil)
  | some o => do
    match ← N.readProperty net d.dev.target o.request with
    | .error e => pure (.error (.call e))
    | .ok out => pure (.ok out)

/-- The data a caller works with that does not look at the error.
network/points.go:49, network/discover.go:66-69, network/whois.go:54-57. -/
def dataOf (r : Except NetErr PropertyData) : PropertyData :=
  match r with
  | .ok d => d
  | .error _ => {}

/-- network/write.go:11-18 `Write`. -/
structure NetWrite where
  inst : UInt32 := 0
  typ : UInt16 := 0
  prop : UInt32 := 0
  value : Scalar := .nil
  null : Bool := false
  priority : UInt8 := 0
  deriving DecidableEq, Repr

/-- network/write.go:40-63: the value sent; only uint32, float32, float64 and string are
accepted. -/
def NetWrite.toSend (w : NetWrite) : Except NetErr Scalar :=
  if w.null then .ok .null
  else
    match w.value with
    | .uint v => .ok (.uint v)
    | .real b => .ok (.real b)
    | .double b => .ok (.double b)
    | .str s => .ok (.str s)
    | _ => .error .badType

/-- network/write.go:24-38, 65. -/
def NetWrite.request (w : NetWrite) (v : Scalar) : PropertyData :=
  { object := { id := ⟨w.typ, w.inst⟩,
                properties := [{ typ := w.prop, arrayIndex := arrayAll, data := .one v, priority := w.priority }] } }

/-- network/write.go:20-72 `Write`: one call of `WriteProperty`. -/
def NetDevice.write (d : NetDevice) (my : Address) (invoke : Option UInt8) (script : Nat → Attempt)
    (w : NetWrite) : List Sent × Outcome (Except NetErr Unit) :=
  match w.toSend with
  | .error e => ([], .ok (.error e))
  | .ok v =>
    match clientWriteProperty my d.dev.target (w.request v) invoke script with
    | (s, .ok (.ok ())) => (s, .ok (.ok ()))
    | (s, .ok (.error e)) => (s, .ok (.error (.call e)))
    | (s, .panic k) => (s, .panic k)
    | (s, .diverge) => (s, .diverge)

/-! ## network/points.go, network/strings.go -/

/-- network/points.go:12-20 `Point`: the fields used. -/
structure Point where
  inst : UInt32 := 0
  typ : UInt16 := 0
  writePriority : UInt8 := 0
  deriving DecidableEq, Repr

/-- network/points.go:73-78 and alike: the whole of a property of a point. -/
def Point.whole (p : Point) (prop : UInt32) : NetObject := ⟨p.inst, p.typ, prop, arrayAll⟩

/-- network/points.go:262-282 `isPointWriteable`. -/
def isPointWriteable (p : Point) : Bool :=
  if p.typ ≠ 4 then true
  else if p.typ ≠ 5 then true
  else if p.typ ≠ 1 then true
  else if p.typ ≠ 1 then true
  else if p.typ ≠ 14 then true
  else if p.typ ≠ 19 then true
  else false

/-- network/points.go:284-295 `isPointFloat`. -/
def isPointFloat (p : Point) : Bool := p.typ = 0 || p.typ = 1 || p.typ = 2

/-- network/points.go:297-308 `isPointBool`. -/
def isPointBool (p : Point) : Bool := p.typ = 3 || p.typ = 4 || p.typ = 5

/-- network/points.go:26-33 `PointDetails`. -/
structure PointDetails where
  name : List UInt8 := []
  unit : UInt32 := 0
  unitString : List Nat := []
  inst : UInt32 := 0
  typ : UInt16 := 0
  pointType : List Nat := []
  deriving DecidableEq, Repr

/-- network/points.go:56-59: the part for the units. -/
def unitDetails (net : Reader) (d : NetDevice) (p : Point) (resp : PointDetails) : N PointDetails :=
  if isPointBool p then pure resp
  else do
    let r ← d.read net (some (p.whole 117))
    let u := toUint32 (dataOf r)
    let s ← N.lift (Bac.unitString u.toUInt16)
    pure { resp with unit := u, unitString := s }

/-- network/points.go:36-62 `PointDetails`; errors of the reads are dropped. -/
def pointDetails (net : Reader) (d : NetDevice) (p : Point) : N PointDetails := do
  let r ← d.read net (some (p.whole 77))
  unitDetails net d p
    { name := toStr (dataOf r), inst := p.inst, typ := p.typ, pointType := objectTypeString p.typ }

/-- A read of the whole present value converted by `f`; a nil point is dereferenced.
network/points.go:69-85, 108-143. -/
def readPresentValue {α : Type} (net : Reader) (d : NetDevice) (f : PropertyData → α) (p : Option Point) :
    N (Except NetErr α) :=
  match p with
  | none => N.lift (.panic .nilDeref)
  | some p => do
    match ← d.read net (some (p.whole 85)) with
    | .error e => pure (.error e)
    | .ok out => pure (.ok (f out))

/-- network/points.go:69-85 `PointReadFloat32`. -/
def pointReadFloat32 (net : Reader) (d : NetDevice) (p : Option Point) : N (Except NetErr UInt32) :=
  readPresentValue net d toFloat32 p

/-- network/points.go:108-124 `PointReadBool`. -/
def pointReadBool (net : Reader) (d : NetDevice) (p : Option Point) : N (Except NetErr UInt32) :=
  readPresentValue net d toUint32 p

/-- network/points.go:127-143 `PointReadMultiState`. -/
def pointReadMultiState (net : Reader) (d : NetDevice) (p : Option Point) : N (Except NetErr UInt32) :=
  readPresentValue net d toUint32 p

/-- network/points.go:88-105 `PointReadPriority`. -/
def pointReadPriority (net : Reader) (d : NetDevice) (p : Point) : N (Except NetErr Priorities) := do
  match ← d.read net (some (p.whole 87)) with
  | .error e => pure (.error e)
  | .ok out =>
    let pri ← N.lift (buildFloat32 out p.typ)
    pure (.ok pri)

/-- network/points.go:146-165 `PointReleasePriority`. -/
def pointReleasePriority (d : NetDevice) (my : Address) (invoke : Option UInt8) (script : Nat → Attempt)
    (p : Option Point) (pri : UInt8) : List Sent × Outcome (Except NetErr Unit) :=
  match p with
  | none => ([], .ok (.error .badPoint))
  | some p =>
    if pri > 16 ∨ pri < 1 then ([], .ok (.error .badPriority))
    else d.write my invoke script { inst := p.inst, typ := p.typ, prop := 85, null := true, priority := pri }

/-- network/points.go:172-188 `PointWriteAnalogue`. -/
def pointWriteAnalogue (d : NetDevice) (my : Address) (invoke : Option UInt8) (script : Nat → Attempt)
    (p : Point) (bits : UInt32) : List Sent × Outcome (Except NetErr Unit) :=
  d.write my invoke script { inst := p.inst, typ := p.typ, prop := 85, value := .real bits, priority := p.writePriority }

/-- network/points.go:191-207 `PointWriteBool` and 210-226 `PointWriteMultiState`. -/
def pointWriteUint (d : NetDevice) (my : Address) (invoke : Option UInt8) (script : Nat → Attempt)
    (p : Point) (v : UInt32) : List Sent × Outcome (Except NetErr Unit) :=
  d.write my invoke script { inst := p.inst, typ := p.typ, prop := 85, value := .uint v, priority := p.writePriority }

/-- network/strings.go:9-15 `ReadString`; 17-29 `ReadDeviceName` and 45-57 `ReadPointName`
are calls with the object name (77). -/
def readString (net : Reader) (d : NetDevice) (o : Option NetObject) : N (Except NetErr (List UInt8)) := do
  match ← d.read net o with
  | .error e => pure (.error e)
  | .ok out => pure (.ok (toStr out))

/-- network/strings.go:31-43 `WriteDeviceName` (type 8) and 59-72 `WritePointName`. -/
def writeName (d : NetDevice) (my : Address) (invoke : Option UInt8) (script : Nat → Attempt)
    (id : ObjectID) (name : List UInt8) : List Sent × Outcome (Except NetErr Unit) :=
  d.write my invoke script { inst := id.inst, typ := id.typ, prop := 77, value := .str name }

/-! ## network/objects.go -/

/-- network/objects.go:51, 78: the type assertion on an element. -/
def asObjectID (s : Scalar) : Outcome ObjectID :=
  match s with
  | .objId id => .ok id
  | _ => .panic .typeAssertion

/-- network/objects.go:50-53: the loop over the elements. -/
def asObjectIDs : List Scalar → Outcome (List ObjectID)
  | [] => .ok []
  | s :: l => do
    let id ← asObjectID s
    let ids ← asObjectIDs l
    pure (id :: ids)

/-- network/objects.go:78: the first property must hold an object identifier. -/
def elementID (d : PropertyData) : Outcome ObjectID :=
  match d.object.properties with
  | [] => .panic .indexOutOfRange
  | p :: _ =>
    match p.data with
    | .one s => asObjectID s
    | .many _ => .panic .typeAssertion

/-- network/objects.go:32-38, 61-66, 76: element `i` of the object list, or all of it. -/
def listObject (deviceId : UInt32) (i : UInt32) : NetObject := ⟨deviceId, 8, 76, i⟩

/-- network/objects.go:75-80: the loop over the elements `i` .. `i + n - 1`; errors of the
reads are dropped. -/
def builderLoop (net : Reader) (d : NetDevice) (deviceId : UInt32) : Nat → Nat → N (List ObjectID)
  | 0, _ => pure []
  | n + 1, i => do
    let r ← d.read net (some (listObject deviceId (UInt32.ofNat i)))
    let id ← N.lift (elementID (dataOf r))
    let ids ← builderLoop net d deviceId n (i + 1)
    pure (id :: ids)

/-- network/objects.go:59-83 `deviceObjectsBuilder`. -/
def deviceObjectsBuilder (net : Reader) (d : NetDevice) (deviceId : UInt32) : N (Except NetErr (List ObjectID)) := do
  match ← d.read net (some (listObject deviceId 0)) with
  | .error e => pure (.error e)
  | .ok out =>
    let ids ← builderLoop net d deviceId (toUint32 out).toNat 1
    pure (.ok ids)

/-- network/objects.go:31-54: `DeviceObjects` after the limits were updated. -/
def readObjectList (net : Reader) (d : NetDevice) (deviceId : UInt32) : N (Except NetErr (List ObjectID)) := do
  match ← d.read net (some (listObject deviceId arrayAll)) with
  | .error _ => deviceObjectsBuilder net d deviceId
  | .ok out =>
    if out.object.properties = [] then pure (.ok [])
    else
      let arr ← N.lift (toArr out)
      let ids ← N.lift (asObjectIDs arr)
      pure (.ok ids)

/-- network/objects.go:22-27: the limits of the devices found with this instance. -/
def NetDevice.learn (d : NetDevice) (deviceId : UInt32) (found : List FoundDevice) : NetDevice :=
  found.foldl (fun d f =>
    if f.id.inst = deviceId then { d with maxApdu := f.maxApdu, segmentation := f.segmentation } else d) d

/-- network/objects.go:12-55 `DeviceObjects`; `whois` is the result of the Who-Is, made
only if `checkAPDU` is set (`some`). -/
def deviceObjects (net : Reader) (d : NetDevice) (deviceId : UInt32)
    (whois : Option (Except NetErr (List FoundDevice))) : N (NetDevice × Except NetErr (List ObjectID)) :=
  match whois with
  | some (.error e) => pure (d, .error e)
  | some (.ok found) => do
    let d := d.learn deviceId found
    let r ← readObjectList net d deviceId
    pure (d, r)
  | none => do
    let r ← readObjectList net d deviceId
    pure (d, r)

/-! ## network/discover.go, network/whois.go -/

/-- network/discover.go:28-39: the details of every object that is not a device. -/
def pointsLoop (net : Reader) (d : NetDevice) : List ObjectID → N (List PointDetails)
  | [] => pure []
  | o :: os =>
    if o.typ ≠ 8 then do
      let x ← pointDetails net d { inst := o.inst, typ := o.typ }
      let xs ← pointsLoop net d os
      pure (x :: xs)
    else pointsLoop net d os

/-- network/discover.go:22-42 `GetDevicePoints`. -/
def getDevicePoints (net : Reader) (d : NetDevice) (deviceId : UInt32)
    (whois : Except NetErr (List FoundDevice)) : N (NetDevice × Except NetErr (List PointDetails)) := do
  match ← deviceObjects net d deviceId (some whois) with
  | (d, .error e) => pure (d, .error e)
  | (d, .ok ids) => do
    let l ← pointsLoop net d ids
    pure (d, .ok l)

/-- network/discover.go:44-50 `DeviceDetails`; the services are never filled in. -/
structure DeviceDetails where
  name : List UInt8 := []
  maxApdu : UInt32 := 0
  vendorName : List UInt8 := []
  segmentation : UInt32 := 0
  deriving DecidableEq, Repr

/-- network/discover.go:55-86 `GetDeviceDetails` and network/whois.go:50-79 on `Network`,
by the read of one property (name, max APDU, vendor name, segmentation): the data is
empty when the read failed; no error is returned. -/
def deviceDetails (read : UInt32 → N PropertyData) : N DeviceDetails := do
  let name ← read 77
  let apdu ← read 62
  let vendor ← read 121
  let seg ← read 107
  pure { name := toStr name, maxApdu := toUint32 apdu, vendorName := toStr vendor, segmentation := toUint32 seg }

/-- network/discover.go:57-66: the read made for `Device.GetDeviceDetails`: the address
is that of the receiver, the instance that given. -/
def detailRead (net : Reader) (d : NetDevice) (inst : UInt32) (prop : UInt32) : N PropertyData := do
  let r ← d.read net (some ⟨inst, 8, prop, arrayAll⟩)
  pure (dataOf r)

/-- The text of the IP address of a mac (net.IP.String of `UDPAddr`; "<nil>" on error).  network/discover.go:98-100. -/
def hostOf (a : Address) : Host :=
  match a.udpAddr with
  | some ((a, b, c, d), _) => .v4 a b c d
  | none => .invalid

/-- network/discover.go:95-109: one pass of the loop over the devices found; the receiver
is overwritten. -/
def discoverOne (net : Reader) (d : NetDevice) (f : FoundDevice) : N NetDevice := do
  let d : NetDevice :=
    { d with
      macMSTP := match f.addr.adr with
        | [] => d.macMSTP
        | x :: _ => x.toNat,
      deviceId := f.id.inst.toNat, ip := hostOf f.addr, networkNumber := f.addr.net.toNat,
      maxApdu := f.maxApdu, segmentation := f.segmentation }
  let details ← deviceDetails (detailRead net d f.id.inst)
  pure { d with deviceName := details.name, vendorName := details.vendorName }

/-- network/discover.go:94-112: the receiver afterwards and the pointers returned, which
all point to the receiver. -/
def discoverLoop (net : Reader) : NetDevice → List FoundDevice → N (NetDevice × List Unit)
  | d, [] => pure (d, [])
  | d, f :: fs => do
    let d ← discoverOne net d f
    let (d, ps) ← discoverLoop net d fs
    pure (d, () :: ps)

/-- network/discover.go:88-120 `DeviceDiscover`: the devices as the caller sees them
through the pointers returned. -/
def deviceDiscover (net : Reader) (d : NetDevice) (whois : Except NetErr (List FoundDevice)) :
    N (Except NetErr (List NetDevice)) :=
  match whois with
  | .error e => pure (.error e)
  | .ok found => do
    let (d, ps) ← discoverLoop net d found
    pure (.ok (ps.map fun () => d))

/-- A device found as a value of type btypes.Device.  whois.go:95-109. -/
def FoundDevice.toB (f : FoundDevice) : BDevice :=
  { id := f.id, deviceId := f.deviceId,
    ip := match f.ip with
      | some (a, b, c, d) => .v4 a b c d
      | none => .invalid,
    port := f.port, networkNumber := f.networkNumber, macMSTP := f.macMSTP, maxApdu := f.maxApdu,
    segmentation := f.segmentation, vendor := f.vendor, addr := f.addr }

/-- network/whois.go:27-36: the device the details are read from. -/
def rebuilt (f : FoundDevice) : BDevice :=
  let b := f.toB
  newBDevice { deviceId := b.deviceId, ip := b.ip, port := b.port, networkNumber := b.networkNumber,
               macMSTP := b.macMSTP, maxApdu := b.maxApdu, segmentation := b.segmentation }

/-- network/whois.go:54, 81-98: the read made for `Network.GetDeviceDetails`. -/
def networkDetailRead (net : Reader) (dev : BDevice) (prop : UInt32) : N PropertyData := do
  match ← N.readProperty net dev.target (NetObject.request ⟨UInt32.ofInt dev.deviceId, 8, prop, arrayAll⟩) with
  | .ok out => pure out
  | .error _ => pure {}

/-- network/whois.go:26-46. -/
def networkDiscoverLoop (net : Reader) : List FoundDevice → N (List BDevice)
  | [] => pure []
  | f :: fs => do
    let details ← deviceDetails (networkDetailRead net (rebuilt f))
    let l ← networkDiscoverLoop net fs
    pure ({ f.toB with deviceName := details.name, vendorName := details.vendorName,
                       maxApdu := details.maxApdu, segmentation := details.segmentation } :: l)

/-- network/whois.go:22-48 `NetworkDiscover`: devices and the error of the Who-Is (whose
list is then empty, whois.go:21, 49, 64, 73). -/
def networkDiscover (net : Reader) (whois : Except NetErr (List FoundDevice)) :
    N (List BDevice × Option NetErr) :=
  match whois with
  | .error e => pure ([], some e)
  | .ok found => do
    let l ← networkDiscoverLoop net found
    pure (l, none)

end Bac
