import Verif.Model.DatePattern
import Verif.Props.Values
/-!
# Date patterns: odd and even months, odd, even and last days
-/

/-! ## What the standard says (135-2016, 20.2.12) -/

namespace Spec

/-- What the month octet of a date stands for. -/
inductive MonthPattern where
  | month (m : Nat)
  | odd
  | even
  | any
  | undefined
  deriving DecidableEq, Repr

def monthPattern (o : UInt8) : MonthPattern :=
  if 1 ≤ o.toNat ∧ o.toNat ≤ 12 then .month o.toNat
  else if o.toNat = 13 then .odd
  else if o.toNat = 14 then .even
  else if o.toNat = 255 then .any
  else .undefined

/-- What the day octet of a date stands for. -/
inductive DayPattern where
  | day (d : Nat)
  | last
  | odd
  | even
  | any
  | undefined
  deriving DecidableEq, Repr

def dayPattern (o : UInt8) : DayPattern :=
  if 1 ≤ o.toNat ∧ o.toNat ≤ 31 then .day o.toNat
  else if o.toNat = 32 then .last
  else if o.toNat = 33 then .odd
  else if o.toNat = 34 then .even
  else if o.toNat = 255 then .any
  else .undefined

end Spec

namespace Bac.Props

theorem monthPattern_odd (m : UInt8) : Spec.monthPattern m = .odd ↔ m.toNat = 13 := by
  unfold Spec.monthPattern
  (repeat' split) <;> simp <;> omega

theorem monthPattern_even (m : UInt8) : Spec.monthPattern m = .even ↔ m.toNat = 14 := by
  unfold Spec.monthPattern
  (repeat' split) <;> simp <;> omega

theorem dayPattern_last (m : UInt8) : Spec.dayPattern m = .last ↔ m.toNat = 32 := by
  unfold Spec.dayPattern
  (repeat' split) <;> simp <;> omega

theorem dayPattern_odd (m : UInt8) : Spec.dayPattern m = .odd ↔ m.toNat = 33 := by
  unfold Spec.dayPattern
  (repeat' split) <;> simp <;> omega

theorem dayPattern_even (m : UInt8) : Spec.dayPattern m = .even ↔ m.toNat = 34 := by
  unfold Spec.dayPattern
  (repeat' split) <;> simp <;> omega

/-- C141 (partial): in every date received, odd and even months and the last day are recognised, and nothing else is taken
for them. -/
theorem C141_partial (y m d w : UInt8) : ∃ dt : Date, Parses Dec.appData [0xA4, y, m, d, w] (.date dt, none) ∧
    (isOddMonth dt.month = true ↔ Spec.monthPattern m = .odd) ∧
    (isEvenMonth dt.month = true ↔ Spec.monthPattern m = .even) ∧
    (isLastDayOfMonth dt.day = true ↔ Spec.dayPattern d = .last) := by
  obtain ⟨dt, h1, _, h3, h4, _⟩ := C14_date_partial y m d w
  refine ⟨dt, h1, ?_, ?_, ?_⟩
  · rw [h3, monthPattern_odd]; simp only [isOddMonth, beq_iff_eq]; omega
  · rw [h3, monthPattern_even]; simp only [isEvenMonth, beq_iff_eq]; omega
  · rw [h4, dayPattern_last]; simp only [isLastDayOfMonth, beq_iff_eq]; omega

/-- C141 fails, exactly: the last day of the month is taken for all odd days, the odd days for the even ones, and the even
days for nothing. -/
theorem C141_fails (y m d w : UInt8) : ∃ dt : Date, Parses Dec.appData [0xA4, y, m, d, w] (.date dt, none) ∧
    (isOddDayOfMonth dt.day = true ↔ Spec.dayPattern d = .last) ∧
    (isEvenDayOfMonth dt.day = true ↔ Spec.dayPattern d = .odd) ∧
    (Spec.dayPattern d = .even →
      isLastDayOfMonth dt.day = false ∧ isOddDayOfMonth dt.day = false ∧ isEvenDayOfMonth dt.day = false) := by
  obtain ⟨dt, h1, _, h3, h4, _⟩ := C14_date_partial y m d w
  refine ⟨dt, h1, ?_, ?_, ?_⟩
  · rw [h4, dayPattern_last]; simp only [isOddDayOfMonth, beq_iff_eq]; omega
  · rw [h4, dayPattern_odd]; simp only [isEvenDayOfMonth, beq_iff_eq]; omega
  · rw [h4, dayPattern_even]
    simp only [isLastDayOfMonth, isEvenDayOfMonth, isOddDayOfMonth, beq_eq_false_iff_ne, ne_eq]
    omega

/-- "Every odd day of every even month" (any year and weekday) is read as every even day of every even month. -/
example : ∃ dt : Date, Dec.appData (Dec.new [0xA4, 255, 14, 33, 255]) = .ok ((.date dt, none), ⟨[], some 255, none⟩) ∧
    isEvenMonth dt.month = true ∧ isEvenDayOfMonth dt.day = true ∧ isOddDayOfMonth dt.day = false :=
  ⟨⟨2245, 14, 33, 255⟩, by decide +kernel, rfl, rfl, rfl⟩

end Bac.Props
