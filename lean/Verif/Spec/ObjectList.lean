import Verif.Model.Types
import Verif.Spec.Services
/-!
# A device that knows its objects

What a device answers to ReadPropertyMultiple about its object list (property 76), and names (77)
and descriptions (28) of its objects: one result per object asked for, in the same order (clause
15.7).
-/

namespace Spec

open Bac (Object ObjectID Property Value)

/-- The objects of a device, in the order of its object list, with names and descriptions. -/
structure Inventory where
  ids : List ObjectID
  name : ObjectID → List UInt8
  description : ObjectID → List UInt8

/-- The value of a property of an object; element `i` of an array counts from 1. -/
def Inventory.value (inv : Inventory) (id : ObjectID) (p : Property) : Value :=
  if p.typ = 76 then
    if p.arrayIndex = 0 then .one (.uint (UInt32.ofNat inv.ids.length))
    else match inv.ids[p.arrayIndex.toNat - 1]? with
      | some x => .one (.objId x)
      | none => .one .nil
  else if p.typ = 77 then .one (.str (inv.name id))
  else if p.typ = 28 then .one (.str (inv.description id))
  else .one .nil

/-- The answer to a request. -/
def Inventory.answer (inv : Inventory) (req : List Object) : List Object :=
  req.map fun o => { o with properties := o.properties.map fun p => { p with data := inv.value o.id p } }

/-- What the device answers on the wire to one property reference of an object; an unknown property
is an access error (class property, unknown-property; 2, 32), as is a bad index (2, 42). -/
def Inventory.result (inv : Inventory) (typ inst : Nat) (r : PropRef) : ReadResult :=
  if r.prop = 76 then
    match r.index with
    | some 0 => .values [.unsigned inv.ids.length]
    | some (i + 1) =>
      match inv.ids[i]? with
      | some x => .values [.objId x.typ.toNat x.inst.toNat]
      | none => .error 2 42
    | none => .values (inv.ids.map fun x => .objId x.typ.toNat x.inst.toNat)
  else if r.prop = 77 then .values [.chars (inv.name ⟨UInt16.ofNat typ, UInt32.ofNat inst⟩)]
  else if r.prop = 28 then .values [.chars (inv.description ⟨UInt16.ofNat typ, UInt32.ofNat inst⟩)]
  else .error 2 32

/-- The service part of its ReadPropertyMultiple acknowledgement (clause 15.7.3). -/
def Inventory.results (inv : Inventory) (req : List ReadSpec) : List ObjResult :=
  req.map fun o => ⟨o.typ, o.inst, o.props.map fun r => (r, inv.result o.typ o.inst r)⟩

/-- The array indices asked for. -/
def indices (req : List Object) : List Nat :=
  req.flatMap fun o => o.properties.map fun p => p.arrayIndex.toNat

end Spec
