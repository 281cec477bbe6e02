import Mathlib.Data.Int.Order.Basic
import Mathlib.Order.Basic

/-!
# Specification of the Gregorian calendar (independent of the model)
-/
namespace Verif.Time.Spec

/-- Gregorian leap year. -/
def gregLeap (y : ℤ) : Prop := (y % 4 = 0 ∧ y % 100 ≠ 0) ∨ y % 400 = 0

instance (y : ℤ) : Decidable (gregLeap y) := by unfold gregLeap; infer_instance

/-- Number of days in month `m` of year `y`. -/
def monthLen (y m : ℤ) : ℤ :=
  if m = 2 then (if gregLeap y then 29 else 28)
  else if m = 4 ∨ m = 6 ∨ m = 9 ∨ m = 11 then 30 else 31

/-- A (proleptic) Gregorian calendar date. -/
def Valid (y m d : ℤ) : Prop := 1 ≤ m ∧ m ≤ 12 ∧ 1 ≤ d ∧ d ≤ monthLen y m

instance (y m d : ℤ) : Decidable (Valid y m d) := by unfold Valid; infer_instance

/-- The calendar day following a date. -/
def nextDay (y m d : ℤ) : ℤ × ℤ × ℤ :=
  if d < monthLen y m then (y, m, d + 1)
  else if m < 12 then (y, m + 1, 1)
  else (y + 1, 1, 1)

/-- Lexicographic order on dates. -/
def Before (y m d y' m' d' : ℤ) : Prop :=
  y < y' ∨ (y = y' ∧ (m < m' ∨ (m = m' ∧ d < d')))

/-- Days of the year before month `m`. -/
def daysBefore (y m : ℤ) : ℤ :=
  (if m ≤ 1 then 0 else if m = 2 then 31 else if m = 3 then 59 else if m = 4 then 90
   else if m = 5 then 120 else if m = 6 then 151 else if m = 7 then 181 else if m = 8 then 212
   else if m = 9 then 243 else if m = 10 then 273 else if m = 11 then 304 else 334)
  + (if 3 ≤ m ∧ gregLeap y then 1 else 0)

/-- Days from 1858-11-17 to a date (this is `datetime.date.toordinal` of the
Python standard library minus 678576). It is characterised by
`dayNumber_epoch` and `dayNumber_next` in `Verif.Time.Calendar`. -/
def dayNumber (y m d : ℤ) : ℤ :=
  365 * (y - 1) + (y - 1) / 4 - (y - 1) / 100 + (y - 1) / 400 + daysBefore y m + d - 678576

/-- Length of a year. -/
def yearLen (y : ℤ) : ℤ := if gregLeap y then 366 else 365

end Verif.Time.Spec
