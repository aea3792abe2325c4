import Verif.Spec.Wire
import Verif.Model.Decoder
/-!
# Specification: application-tagged values (ASHRAE 135 clause 20.2.2 - 20.2.14)

Abstract values, the octets the standard prescribes for each, and when a Go
value handed to the user means such an abstract value.  Only the data types of
the model are used here.
-/

namespace Spec

/-- An abstract application value. Reals are IEEE bit patterns; `chars` is UTF-8. -/
inductive AppVal where
  | null
  | bool (b : Bool)
  | unsigned (v : Nat)
  | signed (v : Int)
  | real (bits : UInt32)
  | double (bits : UInt64)
  | octets (l : List UInt8)
  | chars (utf8 : List UInt8)
  | bits (l : List Bool)
  | enum (v : Nat)
  | date (y m d w : UInt8)
  | time (h m s c : UInt8)
  | objId (typ inst : Nat)
  deriving DecidableEq, Repr

/-- Least number of octets whose two's complement holds `v` (for 32-bit `v`). -/
def signedMinOctets (v : Int) : Nat :=
  if -2 ^ 7 ≤ v ∧ v < 2 ^ 7 then 1
  else if -2 ^ 15 ≤ v ∧ v < 2 ^ 15 then 2
  else if -2 ^ 23 ≤ v ∧ v < 2 ^ 23 then 3
  else 4

/-- The `n`-octet two's complement of `v`, big-endian. -/
def twosComplement (n : Nat) (v : Int) : List UInt8 := bigEndian n (v % (256 : Int) ^ n).toNat

/-- The integer denoted by octets in two's complement. -/
def signedValue (bs : List UInt8) : Int :=
  if 2 * value bs < 256 ^ bs.length then value bs else (value bs : Int) - 256 ^ bs.length

/-- One octet from at most eight bits, first bit most significant, padded with zeros. -/
def packOctet (l : List Bool) : UInt8 :=
  UInt8.ofNat ((l ++ List.replicate (8 - l.length) false).foldl
    (fun acc b => acc * 2 + if b then 1 else 0) 0)

/-- Clause 20.2.10: bits in transmission order packed into octets. -/
def packBits (l : List Bool) : List UInt8 :=
  if h : l = [] then []
  else
    have : (l.drop 8).length < l.length := by
      have : 0 < l.length := List.length_pos_iff.mpr h
      rw [List.length_drop]; omega
    packOctet (l.take 8) :: packBits (l.drop 8)
termination_by l.length

/-- The bits of an octet in transmission order (most significant first). -/
def octetBits (b : UInt8) : List Bool :=
  [b.toNat.testBit 7, b.toNat.testBit 6, b.toNat.testBit 5, b.toNat.testBit 4,
   b.toNat.testBit 3, b.toNat.testBit 2, b.toNat.testBit 1, b.toNat.testBit 0]

/-- The bits of a list of octets in transmission order. -/
def bitsOf (l : List UInt8) : List Bool := l.flatMap octetBits

/-- Application tag number (clause 20.2.1.4). -/
def AppVal.tag : AppVal → Nat
  | .null => 0
  | .bool _ => 1
  | .unsigned _ => 2
  | .signed _ => 3
  | .real _ => 4
  | .double _ => 5
  | .octets _ => 6
  | .chars _ => 7
  | .bits _ => 8
  | .enum _ => 9
  | .date .. => 10
  | .time .. => 11
  | .objId .. => 12

/-- Contents octets. -/
def AppVal.contents : AppVal → List UInt8
  | .null => []
  | .bool _ => []
  | .unsigned v => unsignedOctets v
  | .signed v => twosComplement (signedMinOctets v) v
  | .real b => bigEndian 4 b.toNat
  | .double b => bigEndian 8 b.toNat
  | .octets l => l
  | .chars s => 0 :: s
  | .bits l => UInt8.ofNat ((8 - l.length % 8) % 8) :: packBits l
  | .enum v => unsignedOctets v
  | .date y m d w => [y, m, d, w]
  | .time h m s c => [h, m, s, c]
  | .objId t i => objectId t i

/-- The value of the length/value field: the number of contents octets, except
that a Boolean carries its value there (clause 20.2.3). -/
def AppVal.lenField : AppVal → Nat
  | .bool b => if b then 1 else 0
  | v => v.contents.length

/-- The complete encoding. -/
def AppVal.encoding (v : AppVal) : List UInt8 := tagHeader v.tag false v.lenField ++ v.contents

/-- Values the standard can carry in the sizes this library handles. -/
def AppVal.WF : AppVal → Prop
  | .unsigned v => v < 2 ^ 32
  | .enum v => v < 2 ^ 32
  | .signed v => -2 ^ 31 ≤ v ∧ v < 2 ^ 31
  | .octets l => l.length < 2 ^ 32
  | .chars s => s.length + 1 < 2 ^ 32
  | .bits l => (packBits l).length + 1 < 2 ^ 32
  | .objId t i => t < 2 ^ 10 ∧ i < 2 ^ 22
  | _ => True

/-- The Go value `s` means `v`. A year is counted from 1900, 255 meaning "any". -/
def Means (s : Bac.Scalar) (v : AppVal) : Prop :=
  match v with
  | .null => s = .null
  | .bool b => s = .bool b
  | .unsigned n => ∃ x : UInt32, s = .uint x ∧ x.toNat = n
  | .signed n => ∃ x : Int32, s = .int x ∧ x.toInt = n
  | .real b => s = .real b
  | .double b => s = .double b
  | .octets l => s = .octets l
  | .chars l => s = .str l
  | .bits l => ∃ b, s = .bits (some b) ∧ b.getValue = .ok l
  | .enum n => ∃ x : UInt32, (s = .uint x ∨ s = .enum x) ∧ x.toNat = n
  | .date y m d w =>
      s = .date ⟨if y = 255 then 255 else 1900 + y.toNat, m.toNat, d.toNat, w.toNat⟩
  | .time h m s' c => s = .time ⟨h.toNat, m.toNat, s'.toNat, 10 * c.toNat⟩
  | .objId t i => ∃ id : Bac.ObjectID, s = .objId id ∧ id.typ.toNat = t ∧ id.inst.toNat = i

example : (AppVal.chars [72, 105]).encoding = [0x73, 0, 72, 105] := by decide +kernel
example : (AppVal.signed (-2)).encoding = [0x31, 0xFE] := by decide +kernel
example : (AppVal.signed 200).encoding = [0x32, 0, 200] := by decide +kernel
example : (AppVal.double 0x4008000000000000).encoding
    = [0x55, 8, 0x40, 8, 0, 0, 0, 0, 0, 0] := by decide +kernel
example : (AppVal.bits [true, false, true]).encoding = [0x82, 5, 0xA0] := by
  simp [AppVal.encoding, AppVal.lenField, AppVal.contents, AppVal.tag, packBits, packOctet,
    tagHeader, numNibble, numExt, lenBits, lenExt]

end Spec
