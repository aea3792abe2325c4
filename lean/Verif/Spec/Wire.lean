/-!
# Specification: BACnet application-layer octets

Written from ASHRAE 135 clauses 20.2.1 (tags), 20.2.4 (unsigned), 20.2.14
(object identifiers).  Plain natural-number arithmetic; nothing here refers to
the model of the Go code.
-/

namespace Spec

/-- The `n` low-order octets of `v`, most significant first. -/
def bigEndian : Nat → Nat → List UInt8
  | 0, _ => []
  | n + 1, v => bigEndian n (v / 256) ++ [UInt8.ofNat (v % 256)]

/-- The natural number written big-endian by the octets. -/
def value (bs : List UInt8) : Nat := bs.foldl (fun acc b => acc * 256 + b.toNat) 0

/-- `n` octets suffice for `v`. -/
def Fits (n v : Nat) : Prop := v < 256 ^ n

/-- The least number (at least one) of octets that hold `v`, for `v < 2^32`. -/
def minOctets (v : Nat) : Nat :=
  if v < 256 then 1 else if v < 256 ^ 2 then 2 else if v < 256 ^ 3 then 3 else 4

/-- Clause 20.2.4: an unsigned integer in the fewest octets. -/
def unsignedOctets (v : Nat) : List UInt8 := bigEndian (minOctets v) v

/-- Clause 20.2.1: the tag number field, 0..14 in the initial octet, otherwise
15 there and the number in the next octet. -/
def numNibble (num : Nat) : Nat := if num ≤ 14 then num else 15
/-- See `numNibble`. -/
def numExt (num : Nat) : List UInt8 := if num ≤ 14 then [] else [UInt8.ofNat num]

/-- Clause 20.2.1.3: the length field, 0..4 in the initial octet, otherwise 5
there followed by one, three or five octets. -/
def lenBits (len : Nat) : Nat := if len ≤ 4 then len else 5
/-- See `lenBits`. -/
def lenExt (len : Nat) : List UInt8 :=
  if len ≤ 4 then []
  else if len ≤ 253 then [UInt8.ofNat len]
  else if len ≤ 65535 then 254 :: bigEndian 2 len
  else 255 :: bigEndian 4 len

/-- Clause 20.2.1: header of a primitive tag; `ctx` selects context class. -/
def tagHeader (num : Nat) (ctx : Bool) (len : Nat) : List UInt8 :=
  [UInt8.ofNat (numNibble num * 16 + (if ctx then 8 else 0) + lenBits len)]
    ++ numExt num ++ lenExt len

/-- Clause 20.2.1.3.2: opening tag (context class, low bits 6). -/
def openTag (num : Nat) : List UInt8 := [UInt8.ofNat (numNibble num * 16 + 14)] ++ numExt num

/-- Clause 20.2.1.3.2: closing tag (context class, low bits 7). -/
def closeTag (num : Nat) : List UInt8 := [UInt8.ofNat (numNibble num * 16 + 15)] ++ numExt num

/-- Clause 20.2.14: ten bits of type, twenty-two bits of instance. -/
def objectId (typ inst : Nat) : List UInt8 := bigEndian 4 (typ * 2 ^ 22 + inst)

/-- A context-tagged unsigned (or enumerated) value. -/
def ctxUnsigned (num v : Nat) : List UInt8 :=
  tagHeader num true (minOctets v) ++ unsignedOctets v

/-- A context-tagged object identifier. -/
def ctxObjectId (num typ inst : Nat) : List UInt8 :=
  tagHeader num true 4 ++ objectId typ inst

end Spec
