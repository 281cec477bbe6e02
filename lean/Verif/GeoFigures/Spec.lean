import Verif.GeoFigures.Model
/-!
# Specification of the figures
-/
namespace Verif.GeoFigures

/-- the average of some numbers -/
noncomputable def average (l : List ℝ) : ℝ := l.sum / (l.length : ℝ)

/-- records of the months over which the mean is taken -/
noncomputable def base (start : ℤ) (recs : List Rec) : List Rec :=
  recs.filter fun r => start ≤ r.month ∧ r.month ≤ 176

/-- the geocenter variation in millimetres that a coefficient stands for, relative to the average of the base
period -/
noncomputable def variation (radius : ℝ) (start : ℤ) (g : Rec → ℝ) (recs : List Rec) (r : Rec) : ℝ :=
  (g r - average ((base start recs).map g)) * radius * Real.sqrt 3 / 1.021

/-- the point drawn for a month: time and value of the record of the month, nothing if there is none -/
def IsPoint (recs : List Rec) (v : Rec → ℝ) (m : ℤ) (p : Option ℝ × Option ℝ) : Prop :=
  (∀ r ∈ recs, r.month = m → p = (some r.time, some (v r))) ∧
  ((∀ r ∈ recs, r.month ≠ m) → p = (none, none))

/-- no month of the figure has two records -/
def Single (months : List ℤ) (recs : List Rec) : Prop :=
  ∀ m ∈ months, (recs.filter fun r => r.month = m).length ≤ 1

/-- the record of a month, the only one -/
def Only (recs : List Rec) (m : ℤ) (r : Rec) : Prop := recs.filter (fun r => r.month = m) = [r]

/-- `t` is a time in the month `m` of GRACE counting (month 1 is January 2002) -/
def InMonth (m : ℤ) (t : ℝ) : Prop := 2002 + ((m : ℝ) - 1) / 12 ≤ t ∧ t < 2002 + (m : ℝ) / 12

end Verif.GeoFigures
