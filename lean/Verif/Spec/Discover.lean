import Verif.Model.Discover
/-!
# What was observed of an execution of the command discover
-/

namespace Bac.Discover

variable {δ ρ : Type}

/-- The devices the calls of `WhoIs` returned. -/
def scanned (tr : List (Event δ ρ)) : List δ := tr.flatMap fun
  | .whoIs (some l) => l
  | _ => []

/-- The devices whose objects were read. -/
def called (tr : List (Event δ ρ)) : List δ := tr.flatMap fun
  | .objects d _ => [d]
  | _ => []

/-- What the calls of `Objects` returned without error. -/
def found (tr : List (Event δ ρ)) : List ρ := tr.flatMap fun
  | .objects _ (some r) => [r]
  | _ => []

/-- The number of calls of `WhoIs`. -/
def asked (tr : List (Event δ ρ)) : Nat := (tr.flatMap fun
  | .whoIs _ => [()]
  | _ => []).length

end Bac.Discover
