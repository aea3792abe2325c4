import Verif.Model.Tsm
/-!
# What callers of the transaction manager hold

Read off the position of a caller, independently of the manager's own records.
-/

namespace Bac.Spec
open Bac.Tsm

/-- The invoke id in the hands of a caller: from the moment `ID` took it from the free
list until `Put` has put it back. -/
def idOf : Caller → Option Nat
  | .id i | .obj i _ | .chan i _ _ | .opened i _ _ | .look i _ _ _ | .wait i _ _ _
  | .locked i _ _ _ | .closed i _ | .pooled i _ => some i
  | _ => none

/-- The id of an open transaction: `ID` has returned it and `Put` has not been called. -/
def openId : Caller → Option Nat
  | .opened i _ _ | .look i _ _ _ | .wait i _ _ _ => some i
  | _ => none

/-- Does the caller hold a slot? -/
def hasSlot : Caller → Bool
  | .idle | .freedSlot _ _ => false
  | _ => true

/-- Is the caller inside `Put`? -/
def inPut : Caller → Bool
  | .locked _ _ _ _ | .closed _ _ | .pooled _ _ | .freedId _ _ | .freedSlot _ _ => true
  | _ => false

/-- Invoke ids that may be used: 1..254. -/
def allIds : List Nat := List.range' 1 254

end Bac.Spec
