import Verif.Spec.Datagram
/-!
# Discovery: first occurrences, the request
-/

namespace Spec

/-- The list without the elements whose key occurred before. -/
def firsts {α κ : Type} [DecidableEq κ] (key : α → κ) : List α → List α
  | [] => []
  | x :: l => x :: (firsts key l).filter fun y => key y ≠ key x

/-- Clause 6.2: the network header of a broadcast: on the local network, or to all
stations of a network (0xFFFF: of all networks). -/
def broadcastHeader (net : Nat) : NetHeader :=
  { version := 1, expectingReply := false, priority := 0, dest := if net = 0 then none else some ⟨net, []⟩, hop := 255, src := none, msg := none }

/-- The instances a Who-Is with the given limits asks for. -/
def asksFor (limits : Option (Nat × Nat)) (inst : Nat) : Prop :=
  match limits with
  | some (low, high) => low ≤ inst ∧ inst ≤ high
  | none => True

/-- Clause 6.4.19 Network-Number-Is: the number, and whether it was configured. -/
def networkNumberIs (net : Nat) (configured : Bool) : List UInt8 :=
  [1, 0x80, 0x13] ++ bigEndian 2 net ++ [if configured then 1 else 0]

end Spec
