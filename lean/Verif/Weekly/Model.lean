import Verif.Time.Model

/-!
# Model of `convert_weekly` (read_SLR_harmonics.py)

Exact rational arithmetic.  `np.argsort` is a parameter: the order it gives to equal keys is not
specified by numpy, so the theorems hold for every function that sorts.  `t_in` and `d_in` are assumed
to have the same length.
-/
namespace Verif.Weekly
open Verif.Time

/-- `np.repeat(t_in, 7)` plus the offsets of the days (read_SLR_harmonics.py:356, 359) -/
def dayTimes (t : List ℚ) : List ℚ :=
  (List.range (7 * t.length)).map fun k : ℕ => t.getD (k / 7) 0 + (((k % 7 : ℕ) : ℚ) - 7 / 2) / (1461 / 4)

/-- `np.repeat(d_in, 7)` (read_SLR_harmonics.py:357) -/
def dayData (d : List ℚ) : List ℚ :=
  (List.range (7 * d.length)).map fun k : ℕ => d.getD (k / 7) 0

/-- `np.mean`; `none` stands for the mean of nothing, not a number -/
def mean (xs : List ℚ) : Option ℚ := if xs.length = 0 then none else some (xs.sum / xs.length)

/-- the squared differences `(tdec - D)**2` (read_SLR_harmonics.py:367) -/
def sqDist (t : List ℚ) (D : ℚ) : List ℚ := (dayTimes t).map fun x => (x - D) ^ 2

/-- one output date (read_SLR_harmonics.py:366-370) -/
def average (argsort : List ℚ → List ℕ) (t d : List ℚ) (NEIGHBORS : ℕ) (D : ℚ) : Option (ℚ × ℚ) :=
  let isort := (argsort (sqDist t D)).take NEIGHBORS
  match mean (isort.map fun k => (dayTimes t).getD k 0), mean (isort.map fun k => (dayData d).getD k 0) with
  | some a, some b => some (a, b)
  | _, _ => none

/-- the output dictionary -/
structure Out where
  time : List ℚ
  month : List ℤ
  data : List ℚ

/-- `dinput['time'][i] = x`: the array was made by `np.zeros_like(DATE)` and holds integers when the dates
are integers (read_SLR_harmonics.py:362, 369) -/
def store (intDates : Bool) (x : ℚ) : ℚ :=
  if intDates then (if 0 ≤ x then ((⌊x⌋ : ℤ) : ℚ) else ((⌈x⌉ : ℤ) : ℚ)) else x

/-- `convert_weekly(t_in, d_in, DATE, NEIGHBORS)` (read_SLR_harmonics.py:331-375) -/
def convertWeekly (argsort : List ℚ → List ℕ) (t d DATE : List ℚ) (intDates : Bool) (NEIGHBORS : ℕ) : Option Out :=
  (DATE.mapM fun D => average argsort t d NEIGHBORS D).map fun rs =>
    let time := rs.map fun r => store intDates r.1
    ⟨time, adjustMonths (time.map fun x => calendarToGrace x), rs.map fun r => r.2⟩

end Verif.Weekly
