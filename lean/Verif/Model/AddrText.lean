import Verif.Model.Network
/-!
# Texts of addresses and of answers

The other modules take the text of an IP address as the address it denotes (`Host`).
Here the texts themselves are read and written: package net of Go 1.17 (the version of
go.mod), helpers/validation, the address arguments of datalink/udp.go and
btypes/device.go; and the texts btypes makes of object identifiers and answers.
Reading IPv6 text is a parameter (`v6`).
-/

namespace Bac

/-! ## Package net -/

/-- Go 1.17 net/parse.go `dtoi`, the loop: the number read so far, then the text left. -/
def dtoiLoop (n : Nat) : List Nat → Option (Nat × List Nat)
  | [] => some (n, [])
  | c :: s =>
    if 48 ≤ c ∧ c ≤ 57 then
      let n' := n * 10 + (c - 48)
      if n' ≥ 0xFFFFFF then none else dtoiLoop n' s
    else some (n, c :: s)

/-- Go 1.17 net/parse.go `dtoi`: the number and the text after it; at least one digit. -/
def dtoi (s : List Nat) : Option (Nat × List Nat) :=
  match s with
  | [] => none
  | c :: _ => if 48 ≤ c ∧ c ≤ 57 then dtoiLoop 0 s else none

/-- Go 1.17 net/ip.go `parseIPv4`: one field; no leading zero. -/
def ipField (s : List Nat) : Option (UInt8 × List Nat) :=
  match dtoi s with
  | none => none
  | some (n, r) =>
    if n > 0xFF then none
    else if s.length - r.length > 1 ∧ s.head? = some 48 then none
    else some (UInt8.ofNat n, r)

/-- Go 1.17 net/ip.go `parseIPv4`: the dot ('.' is 46) before a field. -/
def ipDot : List Nat → Option (List Nat)
  | 46 :: s => some s
  | _ => none

/-- Go 1.17 net/ip.go `parseIPv4`. -/
def parseIPv4 (s : List Nat) : Option (UInt8 × UInt8 × UInt8 × UInt8) := do
  let (a, s) ← ipField s
  let s ← ipDot s
  let (b, s) ← ipField s
  let s ← ipDot s
  let (c, s) ← ipField s
  let s ← ipDot s
  let (d, s) ← ipField s
  if s = [] then some (a, b, c, d) else none

/-- Go 1.17 net/ip.go `ParseIP`: the first '.' or ':' (58) decides. -/
def parseIP (v6 : List Nat → Option (List UInt8)) (s : List Nat) : Host :=
  match s.find? (fun c => c = 46 ∨ c = 58) with
  | none => .invalid
  | some c =>
    if c = 46 then
      match parseIPv4 s with
      | some (a, b, c, d) => .v4 a b c d
      | none => .invalid
    else
      match v6 s with
      | some o => .v6 o
      | none => .invalid

/-- Go 1.17 net/ip.go `ParseCIDR`: the text before the slash is tried as IPv4, then as
IPv6. -/
def cidrHost (v6 : List Nat → Option (List UInt8)) (s : List Nat) : Host :=
  match parseIPv4 s with
  | some (a, b, c, d) => .v4 a b c d
  | none =>
    match v6 s with
    | some o => .v6 o
    | none => .invalid

/-- Go 1.17 net/ip.go `ParseCIDR`: cut at the first slash (47); the number must be the
whole rest. -/
def parseCIDRText (v6 : List Nat → Option (List UInt8)) (s : List Nat) : Option CIDR :=
  match s.dropWhile (· ≠ 47) with
  | [] => none
  | _ :: mask =>
    match dtoi mask with
    | some (n, []) => parseCIDR (cidrHost v6 (s.takeWhile (· ≠ 47))) n
    | _ => none

/-- net.IP.String of an IPv4 address.  Used at whois.go:107, network/discover.go:100. -/
def ipv4Text (a b c d : UInt8) : List Nat :=
  decimal a.toNat ++ [46] ++ decimal b.toNat ++ [46] ++ decimal c.toNat ++ [46] ++ decimal d.toNat

/-- net.IP.String of a nil address.  Used at network/discover.go:98-100, where the error of `UDPAddr` is dropped. -/
def nilIPText : List Nat := t!"<nil>"

/-! ## helpers/validation/vaildation.go -/

/-- `strings.HasSuffix`.  Used at helpers/validation/vaildation.go:37, 40. -/
def hasSuffix (s suf : List Nat) : Bool := suf.isSuffixOf s

/-- `strings.TrimSuffix` of a suffix that is there.  Used at helpers/validation/vaildation.go:38, 41. -/
def trimSuffix (s suf : List Nat) : List Nat := s.take (s.length - suf.length)

/-- helpers/validation/vaildation.go:36-46 `NormaliseIPAddr`. -/
def normaliseIPAddr (ip : List Nat) : List Nat :=
  if hasSuffix ip (t!"/32") ∧ 46 ∈ ip then trimSuffix ip (t!"/32")
  else if hasSuffix ip (t!"/128") then trimSuffix ip (t!"/128")
  else ip

/-- helpers/validation/vaildation.go:30-33 `ValidIP`. -/
def validIP (v6 : List Nat → Option (List UInt8)) (ip : List Nat) : Bool :=
  parseIP v6 (normaliseIPAddr ip) ≠ .invalid

/-- helpers/validation/vaildation.go:10-18 `ValidCIDR` on the text. -/
def validCIDRText (v6 : List Nat → Option (List UInt8)) (ip : List Nat) (cidr : Int) : Bool :=
  (parseCIDRText v6 (ip ++ [47] ++ sprintD cidr)).isSome

/-! ## Uses of the texts -/

/-- helpers/ipbytes/ip.go:12-41 `New` on the text: `net.ParseIP`, then `To4`. -/
def ipBytesText (v6 : List Nat → Option (List UInt8)) (ip : List Nat) (port : UInt16) : List UInt8 :=
  ipBytes (parseIP v6 ip) port

/-- datalink/udp.go:51-58 `NewUDPDataLinkFromIP` with 60-86 `dataLink` on the text: the
parts of the network read from `fmt.Sprintf("%s/%d", addr, subNet)`. -/
def fromIPText (v6 : List Nat → Option (List UInt8)) (addr : List Nat) (subNet : Int) : Option CIDR :=
  parseCIDRText v6 (addr ++ [47] ++ sprintD subNet)

/-! ## Texts of btypes -/

/-- btypes/object.go:115-118 `ObjectID.String`. -/
def objectIDString (id : ObjectID) : List Nat :=
  t!"Instance: " ++ decimal id.inst.toNat ++ t!" Type: " ++ objectTypeString id.typ

/-- btypes/property.go:656-662: the line of a property; `show_` is `fmt.Sprintf("%v", ·)`
of its data, `defaultSpacing` is 4, the newline is 10. -/
def propertyLine (show_ : Value → List Nat) (p : Property) : List Nat :=
  t!"    " ++ propertyString p.typ ++ t!"[" ++ decimal p.arrayIndex.toNat ++ t!"]" ++ t!": " ++
    show_ p.data ++ [10]

/-- btypes/property.go:653-664: the lines of an object. -/
def objectLines (show_ : Value → List Nat) (o : Object) : List Nat :=
  objectIDString o.id ++ [10] ++ o.properties.flatMap (propertyLine show_) ++ [10]

/-- encoding/json: a boolean.  Used at btypes/bitstring.go:35. -/
def boolText (b : Bool) : List Nat := if b then t!"true" else t!"false"

/-- encoding/json: the elements of a list of booleans but the first, and the closing bracket.
Used at btypes/bitstring.go:35. -/
def boolsTail : List Bool → List Nat
  | [] => t!"]"
  | b :: l => t!"," ++ boolText b ++ boolsTail l

/-- encoding/json: a list of booleans (not nil).  Used at btypes/bitstring.go:35. -/
def boolsText : List Bool → List Nat
  | [] => t!"[]"
  | b :: l => t!"[" ++ boolText b ++ boolsTail l

/-- btypes/bitstring.go:34-37 `BitString.String`. -/
def BitString.text (bs : BitString) : Outcome (List Nat) := do
  let l ← bs.getValue
  pure (boolsText l)

/-- btypes/property.go:648-667 `MultiplePropertyData.String`. -/
def multiString (show_ : Value → List Nat) (os : List Object) : List Nat :=
  os.flatMap (objectLines show_)

/-! ## helpers/data/data.go: the functions nothing in the library looks at the result of -/

/-- The Go type of a decoded value, as a type assertion sees it.
The assertions are those of helpers/data/data.go:8-79. -/
inductive GoType where
  | nil | null | bool | uint32 | int32 | int | float32 | float64 | bytes | string
  | bitString | enumerated | date | time | dateTime | objectID | slice | other
  deriving DecidableEq, Repr

/-- The dynamic type of a value (Model/Types.lean).  Seen by helpers/data/data.go:8-79. -/
def Value.goType : Value → GoType
  | .many _ => .slice
  | .one .nil => .nil
  | .one .null => .null
  | .one (.bool _) => .bool
  | .one (.uint _) => .uint32
  | .one (.int _) => .int32
  | .one (.real _) => .float32
  | .one (.double _) => .float64
  | .one (.octets _) => .bytes
  | .one (.str _) => .string
  | .one (.bits _) => .bitString
  | .one (.enum _) => .enumerated
  | .one (.date _) => .date
  | .one (.time _) => .time
  | .one (.datetime _ _) => .dateTime
  | .one (.objId _) => .objectID
  | .one (.unsupported _) => .other

/-- helpers/data/data.go:27-79: the checked assertion to a type made by `ToInt`,
`ToFloat32`, `ToFloat64`, `ToBool`, `ToStr`, `ToUint32`: the value when it has the type. -/
def assertFirst (want : GoType) (d : PropertyData) : Option Value :=
  match d.object.properties with
  | [] => none
  | p :: _ => if p.data.goType = want then some p.data else none

/-- helpers/data/data.go:8-25: the assertion made by `ToBitString` and `ToArr`, which index
the properties without looking whether there are any. -/
def indexFirst (want : GoType) (d : PropertyData) : Outcome (Option Value) :=
  match d.object.properties with
  | [] => .panic .indexOutOfRange
  | p :: _ => .ok (if p.data.goType = want then some p.data else none)

/-- helpers/data/data.go:27-34 `ToInt`: ok and the value. -/
def toInt (d : PropertyData) : Option Value := assertFirst .int d

/-- helpers/data/data.go:45-52 `ToFloat64`. -/
def toFloat64 (d : PropertyData) : Option Value := assertFirst .float64 d

/-- helpers/data/data.go:54-61 `ToBool`. -/
def toBool (d : PropertyData) : Option Value := assertFirst .bool d

/-- helpers/data/data.go:8-16 `ToBitString`. -/
def toBitString (d : PropertyData) : Outcome (Option Value) := indexFirst .bitString d

end Bac
