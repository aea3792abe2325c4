import Verif.Spec.Services
/-!
# Specification: elements of property values with constructed types

From the ASN.1 of ASHRAE 135 clause 21: components of constructed types carry
context tags, whose datatype follows from the type of the property.
-/

namespace Spec

/-- The application tag of the datatype of the primitive component with context tag
`n` in a value of property `prop`.
Action (2): BACnetActionCommand; exception-schedule (38): BACnetSpecialEvent;
list-of-group-members (53): ReadAccessSpecification; recipient-list (102):
BACnetRecipient; log-device-object-property (132):
BACnetDeviceObjectPropertyReference; active-cov-subscriptions (152):
BACnetCOVSubscription; subordinate-list (211): BACnetDeviceObjectReference;
actual, expected and requested shed level (212, 214, 218): BACnetShedLevel. -/
def contextType (prop n : Nat) : Option Nat :=
  match prop, n with
  | 2, 0 => some 12 | 2, 1 => some 12 | 2, 2 => some 9 | 2, 3 => some 2 | 2, 5 => some 2
  | 2, 6 => some 2 | 2, 7 => some 1 | 2, 8 => some 1
  | 38, 1 => some 12 | 38, 3 => some 2
  | 53, 0 => some 12
  | 102, 0 => some 12
  | 132, 0 => some 12 | 132, 1 => some 9 | 132, 2 => some 2 | 132, 3 => some 12
  | 152, 2 => some 1 | 152, 3 => some 2 | 152, 4 => some 4
  | 211, 0 => some 12 | 211, 1 => some 12
  | 212, 0 => some 2 | 212, 1 => some 2 | 212, 2 => some 4
  | 214, 0 => some 2 | 214, 1 => some 2 | 214, 2 => some 4
  | 218, 0 => some 2 | 218, 1 => some 2 | 218, 2 => some 4
  | _, _ => none

/-- Contents octets of a context-tagged value: a Boolean has one octet (clause 20.2.3). -/
def contextContents : AppVal → List UInt8
  | .bool b => [if b then 1 else 0]
  | v => v.contents

/-- An element of a property value: an application value, a context-tagged
component, or a BACnetTimeStamp holding a date and time (`[2] { date, time }`). -/
inductive Element where
  | app (v : AppVal)
  | ctx (n : Nat) (v : AppVal)
  | dateTime (y m d w h mi s c : UInt8)
  deriving DecidableEq, Repr

/-- Octets of an element. -/
def Element.octets : Element → List UInt8
  | .app v => v.encoding
  | .ctx n v => tagHeader n true (contextContents v).length ++ contextContents v
  | .dateTime y m d w h mi s c =>
      openTag 2 ++ (AppVal.date y m d w).encoding ++ (AppVal.time h mi s c).encoding ++ closeTag 2

example : (Element.ctx 0 (.objId 8 99)).octets = [0x0C, 2, 0, 0, 99] := by decide +kernel
example : (Element.ctx 2 (.bool false)).octets = [0x29, 0] := by decide +kernel
example : (Element.dateTime 126 11 16 1 12 30 0 0).octets
    = [0x2E, 0xA4, 126, 11, 16, 1, 0xB4, 12, 30, 0, 0, 0x2F] := by decide +kernel

end Spec
