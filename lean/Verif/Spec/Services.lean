import Verif.Spec.AppVal
import Verif.Spec.Headers
/-!
# Specification: service requests and acknowledgements

From ASHRAE 135 clauses 15 (object access services), 16.10 (Who-Is/I-Am) and
their ASN.1 in clause 21.  Plain data, natural numbers.
-/

namespace Spec

/-- Who-Is with limits, or without. -/
def whoIs (limits : Option (Nat × Nat)) : List UInt8 :=
  unconfirmedHeader 8 ++
    match limits with
    | some (low, high) => ctxUnsigned 0 low ++ ctxUnsigned 1 high
    | none => []

/-- I-Am: device identifier, max APDU, segmentation, vendor. -/
def iAm (typ inst maxApdu segmentation vendor : Nat) : List UInt8 :=
  unconfirmedHeader 0 ++ (AppVal.objId typ inst).encoding ++ (AppVal.unsigned maxApdu).encoding
    ++ (AppVal.enum segmentation).encoding ++ (AppVal.unsigned vendor).encoding

/-- An object property with optional array index. -/
structure PropRef where
  prop : Nat
  index : Option Nat
  deriving DecidableEq, Repr

/-- Property reference under the given context tags. -/
def PropRef.octets (p : PropRef) (propTag indexTag : Nat) : List UInt8 :=
  ctxUnsigned propTag p.prop ++
    match p.index with
    | some i => ctxUnsigned indexTag i
    | none => []

/-- The property reference a Go property stands for; the index 0xFFFFFFFF
(btypes `ArrayAll`) stands for "no index". -/
def _root_.Bac.Property.ref (p : Bac.Property) : PropRef :=
  ⟨p.typ.toNat, if p.arrayIndex = 0xFFFFFFFF then none else some p.arrayIndex.toNat⟩

/-- Header of an unsegmented confirmed request as this client sends it: no
segmented response accepted, unspecified segments, 1476-octet APDUs (0x05). -/
def request (invoke service : UInt8) : List UInt8 :=
  confirmedHeader false false false 0x05 invoke 0 0 service

/-- Clause 15.5: ReadProperty-Request. -/
def readProperty (invoke : UInt8) (typ inst : Nat) (p : PropRef) : List UInt8 :=
  request invoke 12 ++ ctxObjectId 0 typ inst ++ p.octets 1 2

/-- Clause 15.5: ReadProperty-ACK service part (after the header). -/
def readPropertyAckBody (typ inst : Nat) (p : PropRef) (values : List UInt8) : List UInt8 :=
  ctxObjectId 0 typ inst ++ p.octets 1 2 ++ openTag 3 ++ values ++ closeTag 3

/-- Clause 15.9: WriteProperty-Request. -/
def writeProperty (invoke : UInt8) (typ inst : Nat) (p : PropRef) (value : List UInt8)
    (priority : Option Nat) : List UInt8 :=
  request invoke 15 ++ ctxObjectId 0 typ inst ++ p.octets 1 2 ++ openTag 3 ++ value ++ closeTag 3
    ++ match priority with
       | some n => ctxUnsigned 4 n
       | none => []

/-- Object with property references (ReadAccessSpecification). -/
structure ReadSpec where
  typ : Nat
  inst : Nat
  props : List PropRef
  deriving DecidableEq, Repr

/-- ReadAccessSpecification. -/
def ReadSpec.octets (s : ReadSpec) : List UInt8 :=
  ctxObjectId 0 s.typ s.inst ++ openTag 1 ++ s.props.flatMap (fun p => p.octets 0 1) ++ closeTag 1

/-- Clause 15.7: ReadPropertyMultiple-Request. -/
def readMultiple (invoke : UInt8) (l : List ReadSpec) : List UInt8 :=
  request invoke 14 ++ l.flatMap ReadSpec.octets

/-- One property with the value to write and an optional priority (BACnetPropertyValue). -/
structure PropVal where
  ref : PropRef
  value : List UInt8
  priority : Option Nat
  deriving DecidableEq, Repr

/-- BACnetPropertyValue: [0] property, [1] index, [2] value, [3] priority. -/
def PropVal.octets (p : PropVal) : List UInt8 :=
  p.ref.octets 0 1 ++ openTag 2 ++ p.value ++ closeTag 2
    ++ match p.priority with
       | some n => ctxUnsigned 3 n
       | none => []

/-- WriteAccessSpecification. -/
structure WriteSpec where
  typ : Nat
  inst : Nat
  props : List PropVal
  deriving DecidableEq, Repr

/-- WriteAccessSpecification. -/
def WriteSpec.octets (s : WriteSpec) : List UInt8 :=
  ctxObjectId 0 s.typ s.inst ++ openTag 1 ++ s.props.flatMap PropVal.octets ++ closeTag 1

/-- Clause 15.10: WritePropertyMultiple-Request. -/
def writeMultiple (invoke : UInt8) (l : List WriteSpec) : List UInt8 :=
  request invoke 16 ++ l.flatMap WriteSpec.octets

/-- Result for one property in a ReadPropertyMultiple-ACK: values, or an access error. -/
inductive ReadResult where
  | values (l : List AppVal)
  | error (cls code : Nat)
  deriving DecidableEq, Repr

/-- [2] property, [3] index, [4] values or [5] error. -/
def ReadResult.octets (ref : PropRef) : ReadResult → List UInt8
  | .values l => ref.octets 2 3 ++ openTag 4 ++ l.flatMap AppVal.encoding ++ closeTag 4
  | .error cls code => ref.octets 2 3 ++ openTag 5 ++ (AppVal.enum cls).encoding
      ++ (AppVal.enum code).encoding ++ closeTag 5

/-- Results for one object (ReadAccessResult). -/
structure ObjResult where
  typ : Nat
  inst : Nat
  props : List (PropRef × ReadResult)
  deriving DecidableEq, Repr

/-- ReadAccessResult. -/
def ObjResult.octets (o : ObjResult) : List UInt8 :=
  ctxObjectId 0 o.typ o.inst ++ openTag 1 ++ o.props.flatMap (fun p => p.2.octets p.1) ++ closeTag 1

/-- ASHRAE 135 annex F.3.7-like request: AnalogInput 5, present-value. -/
example : readProperty 1 0 5 ⟨85, none⟩ = [0, 5, 1, 12, 0x0C, 0, 0, 0, 5, 0x19, 85] := by
  decide +kernel
example : writeProperty 89 2 1 ⟨85, none⟩ (AppVal.real 0x43340000).encoding none
    = [0, 5, 89, 15, 0x0C, 0, 0x80, 0, 1, 0x19, 0x55, 0x3E, 0x44, 0x43, 0x34, 0, 0, 0x3F] := by
  decide +kernel
example : readMultiple 0xF1 [⟨0, 16, [⟨85, none⟩, ⟨103, none⟩]⟩]
    = [0, 5, 0xF1, 14, 0x0C, 0, 0, 0, 16, 0x1E, 0x09, 85, 0x09, 103, 0x1F] := by decide +kernel

end Spec
