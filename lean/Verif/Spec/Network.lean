import Verif.Spec.AppVal
/-!
# Specification: priority arrays and single-precision numbers
-/

namespace Spec

/-- The entry with number `n` (1..16) is the active one of a priority array: the first
that is not null (clause 19.2). -/
def IsActive {α : Type} (entries : List (Option α)) (n : Nat) (v : α) : Prop :=
  1 ≤ n ∧ n ≤ 16 ∧ entries[n - 1]? = some (some v) ∧
    ∀ m, 1 ≤ m → m < n → entries[m - 1]? = some none

/-- No entry 1..16 has a value. -/
def NoneActive {α : Type} (entries : List (Option α)) : Prop :=
  ∀ n v, 1 ≤ n → n ≤ 16 → entries[n - 1]? ≠ some (some v)

/-- The number in an entry of a priority array of unsigned or enumerated values. -/
def entryNumber : AppVal → Option Nat
  | .unsigned n => some n
  | .enum n => some n
  | _ => none

/-- IEEE 754: 2^150 times the value of a positive single-precision number, given by its
bits as a number below 2^31. -/
def realTimes2p150 (bits : Nat) : Nat :=
  if bits / 2 ^ 23 = 0 then bits % 2 ^ 23 * 2
  else (2 ^ 23 + bits % 2 ^ 23) * 2 ^ (bits / 2 ^ 23)

/-- The bits stand for exactly this number. -/
def RealIs (bits n : Nat) : Prop := bits < 2 ^ 31 ∧ realTimes2p150 bits = n * 2 ^ 150

/-- How far the number given by the bits is from `n` (times 2^150). -/
def realError (bits n : Nat) : Nat := ((realTimes2p150 bits : Int) - (n * 2 ^ 150 : Nat)).natAbs

/-- No other finite number is nearer to `n`. -/
def NearestReal (bits n : Nat) : Prop :=
  bits / 2 ^ 23 < 255 ∧ ∀ other, other / 2 ^ 23 < 255 → realError bits n ≤ realError other n

/-- 1, 16777216, 0.5 -/
example : RealIs 0x3F800000 1 ∧ RealIs 0x4B800000 16777216 ∧ ¬ RealIs 0x3F000000 1 := by
  unfold RealIs; decide +kernel

example : IsActive [none, some 7, none, some 9] 2 7 :=
  ⟨by decide, by decide, rfl, fun m h1 h2 => by
    obtain rfl : m = 1 := by omega
    rfl⟩

end Spec
