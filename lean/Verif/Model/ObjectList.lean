import Verif.Model.Client
/-!
# objectlist.go, btypes/object_map.go, btypes/device.go `ObjectSlice`: reading the objects of a device

`ReadProperty` and `ReadMultiProperty` (Model/Client.lean) are arbitrary functions here: the
result of the `n`-th `ReadMultiProperty` call may depend on `n` and on what is asked for.
-/

namespace Bac

/-- btypes/object_map.go:5 `ObjectMap`, a map of maps.  Keys are unique (proved, not assumed);
the order of the lists stands for the arbitrary order in which Go walks through a map. -/
abbrev ObjectMap := List (UInt16 × List (UInt32 × Object))

/-- Map lookup: the value of a key that is present.  Used at objectlist.go:77, 164. -/
def mapGet {κ α : Type} [DecidableEq κ] (k : κ) : List (κ × α) → Option α
  | [] => none
  | (k', a) :: l => if k' = k then some a else mapGet k l

/-- Map assignment `m[k] = a`.  Used at objectlist.go:78, 80, 167. -/
def mapSet {κ α : Type} [DecidableEq κ] (k : κ) (a : α) : List (κ × α) → List (κ × α)
  | [] => [(k, a)]
  | (k', a') :: l => if k' = k then (k, a) :: l else (k', a') :: mapSet k a l

namespace ObjectMap

/-- `m[typ][inst]` with "comma ok".  objectlist.go:164. -/
def find (m : ObjectMap) (id : ObjectID) : Option Object := (mapGet id.typ m).bind (mapGet id.inst)

/-- objectlist.go:77-80: the map of the type is made if missing. -/
def set (m : ObjectMap) (o : Object) : ObjectMap :=
  mapSet o.id.typ (mapSet o.id.inst o ((mapGet o.id.typ m).getD [])) m

/-- objectlist.go:75-83 `objectCopy`. -/
def copy (m : ObjectMap) (src : List Object) : ObjectMap := src.foldl set m

/-- btypes/object_map.go:8-17 `Len`. -/
def len (m : ObjectMap) : Nat := (m.map fun p => p.2.length).sum

/-- btypes/device.go:97-105 `ObjectSlice`. -/
def slice (m : ObjectMap) : List Object := m.flatMap fun p => p.2.map Prod.snd

end ObjectMap

/-- The errors of objectlist.go; the texts are left out. -/
inductive ScanErr where
  | read (e : CallErr)
  | noData
  | wrongType
  deriving DecidableEq, Repr

/-- The `ReadMultiProperty` calls: the result of the `n`-th one, given the objects asked for.
readmulti.go:20-67, called at objectlist.go:52 and 149. -/
abbrev MultiReader := Nat → List Object → Outcome (Except CallErr (List Object))

/-- objectlist.go:9-19: what is asked for first; PropObjectList = 76. -/
def listLenRequest (dev : ObjectID) : PropertyData :=
  { object := { id := dev, properties := [{ typ := 76, arrayIndex := 0 }] } }

/-- objectlist.go:21-34: the length, from the result of `ReadProperty`. -/
def objectListLen : Outcome (Except CallErr PropertyData) → Outcome (Except ScanErr Nat)
  | .ok (.error e) => .ok (.error (.read e))
  | .ok (.ok r) =>
    match r.object.properties with
    | [] => .ok (.error .noData)
    | p :: _ =>
      match p.data with
      | .one (.uint v) => .ok (.ok v.toNat)
      | _ => .ok (.error .wrongType)
  | .panic k => .panic k
  | .diverge => .diverge

/-- objectlist.go:38-51: the request for the entries `start..end`. -/
def rangeRequest (dev : ObjectID) (first last : Nat) : List Object :=
  [{ id := dev, properties := (List.range' first (last + 1 - first)).map fun i =>
      { typ := 76, arrayIndex := UInt32.ofNat i } }]

/-- objectlist.go:62-68: the identifiers in the answer. -/
def listedIds : List Property → Except ScanErr (List Object)
  | [] => .ok []
  | p :: l =>
    match p.data with
    | .one (.objId id) =>
      match listedIds l with
      | .ok os => .ok ({ id := id } :: os)
      | .error e => .error e
    | _ => .error .wrongType

/-- objectlist.go:52-70: the objects, from the result of `ReadMultiProperty`. -/
def rangeResult : Outcome (Except CallErr (List Object)) → Outcome (Except ScanErr (List Object))
  | .ok (.error e) => .ok (.error (.read e))
  | .ok (.ok []) => .ok (.error .noData)
  | .ok (.ok (o :: _)) => .ok (listedIds o.properties)
  | .panic k => .panic k
  | .diverge => .diverge

/-- What a scan leaves behind: the `ReadMultiProperty` requests made, the table, how it ended.  objectlist.go:85-200. -/
structure Scan where
  requests : List (List Object)
  objects : ObjectMap
  result : Outcome (Except ScanErr Unit)
  deriving Repr

/-- objectlist.go:96-114: the pairs `start, end` the loop and the code after it go through. -/
def scanChunks (l scanSize : Nat) : List (Nat × Nat) :=
  (List.range (l / scanSize)).map (fun i => (i * scanSize + 1, (i + 1) * scanSize)) ++
    if l / scanSize * scanSize + 1 ≤ l then [(l / scanSize * scanSize + 1, l)] else []

/-- objectlist.go:100-104, 109-113 for one pair after the other. -/
def scanLoop (net : MultiReader) (dev : ObjectID) :
    List (Nat × Nat) → List (List Object) → ObjectMap → Scan
  | [], reqs, m => ⟨reqs, m, .ok (.ok ())⟩
  | (first, last) :: cs, reqs, m =>
    let req := rangeRequest dev first last
    match rangeResult (net reqs.length req) with
    | .ok (.ok objs) => scanLoop net dev cs (reqs ++ [req]) (m.copy objs)
    | .ok (.error e) => ⟨reqs ++ [req], m, .ok (.error e)⟩
    | .panic k => ⟨reqs ++ [req], m, .panic k⟩
    | .diverge => ⟨reqs ++ [req], m, .diverge⟩

/-- objectlist.go:85-116 `objectList`.  `len` is the result of reading the length. -/
def objectList (net : MultiReader) (dev : ObjectID) (maxApdu : UInt32)
    (len : Outcome (Except CallErr PropertyData)) : Scan :=
  match objectListLen len with
  | .ok (.ok l) =>
    let scanSize := maxApdu.toNat / 20
    if scanSize = 0 then ⟨[], [], .panic .divideByZero⟩
    else scanLoop net dev (scanChunks l scanSize) [] []
  | .ok (.error e) => ⟨[], [], .ok (.error e)⟩
  | .panic k => ⟨[], [], .panic k⟩
  | .diverge => ⟨[], [], .diverge⟩

/-- objectlist.go:134-146: what is asked about an object; PropObjectName = 77,
PropDescription = 28, ArrayAll = 0xFFFFFFFF. -/
def infoRequest (id : ObjectID) : Object :=
  { id := id, properties := [{ typ := 77, arrayIndex := 0xFFFFFFFF }, { typ := 28, arrayIndex := 0xFFFFFFFF }] }

/-- objectlist.go:128-133: the objects asked about (maxStandardBacnetType = 128). -/
def infoObjects (objs : List Object) : List ObjectID :=
  (objs.filter fun o => !decide (o.id.typ > 128)).map Object.id

/-- objectlist.go:122-133: `keys`, of the length of `objs`, filled up with zero identifiers. -/
def infoKeys (objs : List Object) : List ObjectID :=
  infoObjects objs ++ List.replicate (objs.length - (infoObjects objs).length) ⟨0, 0⟩

/-- `Data.(string)`.  objectlist.go:156, 160. -/
def Value.asString : Value → Option (List UInt8)
  | .one (.str s) => some s
  | _ => none

/-- objectlist.go:164-167: name and description are stored under the key; a missing map of the
type is a write to a nil map. -/
def setInfo (m : ObjectMap) (key : ObjectID) (name description : List UInt8) : Outcome ObjectMap :=
  let obj := ((mapGet key.typ m).bind (mapGet key.inst)).getD {}
  match mapGet key.typ m with
  | none => .panic .nilMapWrite
  | some sub => .ok (mapSet key.typ (mapSet key.inst { obj with name := name, description := description } sub) m)

/-- objectlist.go:155-168; `keys` are those from position `i` on. -/
def infoLoop : List Object → List ObjectID → ObjectMap → ObjectMap × Outcome (Except ScanErr Unit)
  | [], _, m => (m, .ok (.ok ()))
  | r :: rs, keys, m =>
    match r.properties with
    | [] => (m, .panic .indexOutOfRange)
    | p :: ps =>
      match p.data.asString with
      | none => (m, .ok (.error .wrongType))
      | some name =>
        match ps with
        | [] => (m, .panic .indexOutOfRange)
        | q :: _ =>
          match q.data.asString with
          | none => (m, .ok (.error .wrongType))
          | some description =>
            match keys with
            | [] => (m, .panic .indexOutOfRange)
            | k :: ks =>
              match setInfo m k name description with
              | .ok m' => infoLoop rs ks m'
              | .panic x => (m, .panic x)
              | .diverge => (m, .diverge)

/-- objectlist.go:177-178: the subsets of at most five. -/
def groupsOf (fuel : Nat) (objs : List Object) : List (List Object) :=
  match fuel with
  | 0 => []
  | fuel + 1 => if objs = [] then [] else objs.take 5 :: groupsOf fuel (objs.drop 5)

/-- objectlist.go:118-170, 177-183: `objectInformation` for one subset after the other. -/
def infoGroups (net : MultiReader) : List (List Object) → List (List Object) → ObjectMap → Scan
  | [], reqs, m => ⟨reqs, m, .ok (.ok ())⟩
  | g :: gs, reqs, m =>
    let req := (infoObjects g).map infoRequest
    match net reqs.length req with
    | .ok (.ok resp) =>
      match infoLoop resp (infoKeys g) m with
      | (m', .ok (.ok ())) => infoGroups net gs (reqs ++ [req]) m'
      | (m', r) => ⟨reqs ++ [req], m', r⟩
    | .ok (.error e) => ⟨reqs ++ [req], m, .ok (.error (.read e))⟩
    | .panic k => ⟨reqs ++ [req], m, .panic k⟩
    | .diverge => ⟨reqs ++ [req], m, .diverge⟩

/-- objectlist.go:172-186 `allObjectInformation`; `objs` is the slice in the order Go happens to
walk through the maps, `reqs` the requests made before. -/
def allObjectInformation (net : MultiReader) (objs : List Object) (reqs : List (List Object)) (m : ObjectMap) : Scan :=
  infoGroups net (groupsOf objs.length objs) reqs m

/-- objectlist.go:193-203 `Objects`.  `order` puts the slice into the order in which Go happens to
walk through the maps. -/
def clientObjects (net : MultiReader) (order : List Object → List Object) (dev : ObjectID) (maxApdu : UInt32)
    (len : Outcome (Except CallErr PropertyData)) : Scan :=
  let s := objectList net dev maxApdu len
  match s.result with
  | .ok (.ok ()) => allObjectInformation net (order s.objects.slice) s.requests s.objects
  | _ => s

end Bac
