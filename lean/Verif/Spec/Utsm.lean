import Verif.Model.Utsm
/-!
# What a subscriber should get

Stated from the history of published messages alone.
-/

namespace Bac.Spec
open Bac.Utsm

/-- The data of those messages of `l` whose id lies between `lo` and `hi`, in order. -/
def matching (lo hi : Int) : List Msg → List Nat
  | [] => []
  | m :: l => if lo ≤ m.id ∧ m.id ≤ hi then m.data :: matching lo hi l else matching lo hi l

/-- The subscriber has subscribed and not returned. -/
def subscribed (x : Sub) : Prop := x.pc = .top ∨ x.pc = .select ∨ x.pc = .leaving

end Bac.Spec
