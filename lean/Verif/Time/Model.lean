import Mathlib.Data.Rat.Floor
import Mathlib.Data.List.Sort
import Mathlib.Data.List.Dedup

/-!
# Model of `gravity_toolkit/time.py`

Floating point numbers are modelled by exact rationals, `np.floor` by the
rational floor.  Arrays are modelled one element at a time, except where the
code looks at neighbouring elements (`adjust_months`).
Python's `%` and `//` with a positive divisor agree with Lean's `%` and `/`
on `ℤ` (both round towards minus infinity).
-/
namespace Verif.Time

/-- `np.round`: round half to even (numpy's `np.round`, used as the `around`
argument of `calendar_to_grace` in SLR/C30.py:170-171, SLR/C20.py, SLR/CS2.py:267-268). -/
def npRound (x : ℚ) : ℤ :=
  if x - ⌊x⌋ < 1/2 then ⌊x⌋
  else if 1/2 < x - ⌊x⌋ then ⌊x⌋ + 1
  else if ⌊x⌋ % 2 = 0 then ⌊x⌋ else ⌊x⌋ + 1

/-- `calendar_to_grace` (time.py:390-410).
`grace_month = around(12.0*(year - 2002.0)) + month`, default `around=np.floor`,
default `month=1`.  `np.array(..., dtype=int)` is exact because `around`
returns an integer. -/
def calendarToGrace (year : ℚ) (month : ℤ := 1) (around : ℚ → ℤ := Int.floor) : ℤ :=
  around (12 * (year - 2002)) + month

/-- `grace_to_calendar` (time.py:412-430). -/
def graceToCalendar (g : ℤ) : ℤ × ℤ :=
  (2002 + (g - 1) / 12, (g - 1) % 12 + 1)

/-- `_dpm_leap` (time.py:460). -/
def dpmLeap : List ℚ := [31, 29, 31, 30, 31, 30, 31, 31, 30, 31, 30, 31]
/-- `_dpm_stnd` (time.py:461). -/
def dpmStnd : List ℚ := [31, 28, 31, 30, 31, 30, 31, 31, 30, 31, 30, 31]

/-- The condition selecting leap years, time.py:491 and (vectorised) time.py:666. -/
def leapCond (y : ℤ) : Bool :=
  (decide (y % 4 = 0) && decide (y % 100 ≠ 0)) ||
  (decide (y % 400 = 0) && decide (y % 4000 ≠ 0))

/-- The condition selecting standard years, time.py:493 and (vectorised) time.py:667. -/
def stndCond (y : ℤ) : Bool :=
  decide (y % 4 ≠ 0) || (decide (y % 100 = 0) && decide (y % 400 ≠ 0)) ||
  decide (y % 4000 = 0)

/-- `calendar_days` (time.py:464-494).  Falling through both branches returns
Python's `None`. -/
def calendarDays (y : ℤ) : Option (List ℚ) :=
  if leapCond y then some dpmLeap
  else if stndCond y then some dpmStnd
  else none

/-- The Modified Julian Day expression of `convert_calendar_dates`
(time.py:583-586). -/
def mjd (year month day hour minute second : ℚ) : ℚ :=
  367 * year - ⌊7 * (year + ⌊(month + 9) / 12⌋) / 4⌋
    - ⌊3 * (⌊(year + (month - 9) / 7) / 100⌋ + 1 : ℚ) / 4⌋
    + ⌊275 * month / 9⌋ + day + hour / 24 + minute / 1440
    + second / 86400 + 1721028.5 - 2400000.5

/-- `convert_calendar_dates` (time.py:552-596).  `epochDays` is
`(epoch - epoch1)/np.timedelta64(1,'D')`: the number of days from the MJD epoch
to the output epoch, computed by `datetime` in the code. -/
def convertCalendarDates (year month day hour minute second : ℚ)
    (epochDays : ℚ) (scale : ℚ := 1) : ℚ :=
  scale * (mjd year month day hour minute second - epochDays)

/-- `convert_delta_time` (time.py:521-548).  Epochs are `datetime64` values,
modelled as rational seconds on a common time line. -/
def convertDeltaTime (deltaTime epoch1 epoch2 : ℚ) (scale : ℚ := 1) : ℚ :=
  let deltaTimeEpochs := epoch2 - epoch1
  scale * (deltaTime - deltaTimeEpochs)

/-- `convert_datetime` (time.py:496-518): seconds since the epoch. -/
def convertDatetime (date epoch : ℚ) : ℚ := date - epoch

/-- Python sequence indexing with wrap-around of negative indices;
`none` is `IndexError`. -/
def pyIdx {α : Type} (l : List α) (i : ℤ) : Option α :=
  if 0 ≤ i then l[i.toNat]?
  else if -(l.length : ℤ) ≤ i then l[(i + l.length).toNat]?
  else none

/-- `np.dot(mon_mat[i,:], dpm)` with `mon_mat = np.tri(12,12,-1)`
(time.py:696,708-711): the sum of the first `i` month lengths; negative row
indices wrap around, rows outside are an `IndexError`. -/
def daysBeforeMonth (dpm : List ℚ) (i : ℤ) : Option ℚ :=
  let row : Option ℕ :=
    if 0 ≤ i ∧ i < 12 then some i.toNat
    else if -12 ≤ i ∧ i < 0 then some (i + 12).toNat else none
  row.map fun r => ((List.range 12).map fun j => (if j < r then 1 else 0) * dpm.getD j 0).sum

/-- `convert_calendar_decimal` (time.py:599-739) for a single date.
`month` is the value after `np.array(..., dtype=np.int64)`.
The output array starts as zeros, the leap assignment (lines 729-732) is
followed by the standard one (734-737).  `none` is an `IndexError`. -/
def convertCalendarDecimal (year : ℤ) (month : ℤ) (day : Option ℚ := none)
    (hour : Option ℚ := none) (minute : Option ℚ := none)
    (second : Option ℚ := none) (dofy : Option ℚ := none) : Option ℚ := do
  let leap := leapCond year
  let stnd := stndCond year
  -- lines 669-711: day of the year, zero based
  let doy : ℚ ←
    match dofy with
    | some D => some (D - 1)
    | none => do
      let month_m1 := month - 1
      let dday : ℚ ←
        match day with
        | some d => some (d - 1)
        | none => do
          let d0 : ℚ := 0
          let d1 ← if leap then (pyIdx dpmLeap month_m1).map (· / 2) else some d0
          if stnd then (pyIdx dpmStnd month_m1).map (· / 2) else some d1
      let y0 : ℚ := 0
      let y1 ← if stnd then (daysBeforeMonth dpmStnd month_m1).map (dday + ·) else some y0
      if leap then (daysBeforeMonth dpmLeap month_m1).map (dday + ·) else some y1
  let h := hour.getD 0
  let mi := minute.getD 0
  let s := second.getD 0
  let t0 : ℚ := 0
  let t1 := if leap then (year : ℚ) + (doy + h / 24 + mi / 1440 + s / 86400) / dpmLeap.sum else t0
  let t2 := if stnd then (year : ℚ) + (doy + h / 24 + mi / 1440 + s / 86400) / dpmStnd.sum else t1
  return t2

/-- `calendar_to_julian` (time.py:433-456).  `none` would be the `AttributeError`
of `None.sum()`. -/
def calendarToJulian (yearDecimal : ℚ) : Option ℚ :=
  let year : ℤ := ⌊yearDecimal⌋
  (calendarDays year).map fun dpm =>
    let dpy := dpm.sum
    let dofy := dpy * (yearDecimal - ⌊yearDecimal⌋)
    367 * (year : ℚ) - ⌊7 * (year : ℚ) / 4⌋
      - ⌊3 * (⌊(7 * (year : ℚ) - 1) / 700⌋ + 1 : ℚ) / 4⌋ + dofy + 1721058.5

/-- Output of `convert_julian`. -/
structure CalDate where
  year : ℤ
  month : ℤ
  day : ℤ
  hour : ℤ
  minute : ℤ
  second : ℚ
deriving DecidableEq, Repr

/-- `convert_julian` (time.py:742-843) for a single Julian day, before the
optional type conversion and output formatting. -/
def convertJulian (JD : ℚ) : CalDate :=
  let JDO : ℤ := ⌊JD + 0.5⌋
  let C : ℤ :=
    if JDO < 2299161 then JDO + 1524
    else
      let B : ℤ := ⌊((JDO : ℚ) - 1867216.25) / 36524.25⌋
      JDO + B - ⌊(B : ℚ) / 4⌋ + 1525
  let D : ℤ := ⌊((C : ℚ) - 122.1) / 365.25⌋
  let E : ℤ := ⌊365 * (D : ℚ) + ⌊(D : ℚ) / 4⌋⌋
  let F : ℤ := ⌊((C : ℚ) - E) / 30.6001⌋
  let day : ℤ := ⌊(C : ℚ) - E + 0.5⌋ - ⌊30.6001 * (F : ℚ)⌋
  let month : ℤ := F - 1 - 12 * ⌊(F : ℚ) / 14⌋
  let year : ℤ := D - 4715 - ⌊(7 + (month : ℚ)) / 10⌋
  let hour : ℤ := ⌊24 * (JD + 0.5 - JDO)⌋
  let G : ℚ := (JD + 0.5 - JDO) - hour / 24
  let minute : ℤ := ⌊G * 1440⌋
  let second : ℚ := (G - minute / 1440) * 86400
  { year, month, day, hour, minute, second }

/-! ## `adjust_months` -/

/-- Element at index `j-1` with Python wrap-around at `j = 0`
(`grace_month[j-1]`, time.py:367,377). -/
def prevAt (l : List ℤ) (j : ℕ) : ℤ :=
  if j = 0 then l.getD (l.length - 1) 0 else l.getD (j - 1) 0

/-- Body of the loop over special months (time.py:365-385): returns the list
`m` after processing index `j`. -/
def adjustStep (g : List ℤ) (m : List ℤ) (j : ℕ) : List ℤ :=
  let nmon := g.length
  let mm1 := prevAt g j
  let mon := g.getD j 0
  let mp1 := if j + 1 < nmon then g.getD (j + 1) 0 else mon + 1
  let mp2 := if j + 2 < nmon then g.getD (j + 2) 0 else mp1 + 1
  if mon = mm1 + 1 then m.set j mon
  else if mon = mm1 ∧ mon ≠ prevAt m j then m.set j mon
  else if mon = mm1 then m.set j (mon + 1)
  else if mon = mp1 ∧ (mon = mm1 + 2 ∨ mp2 = mp1 + 1) then m.set j (mon - 1)
  else m

/-- `adjust_months` (time.py:328-387).  `np.unique(..., return_counts=True)`
gives the number of occurrences of each month; `case1` are the months occurring
once (copied), `case2` those occurring twice (processed in increasing index
order), all others stay 0.  The final `np.squeeze` only changes the array shape. -/
def adjustMonths (g : List ℤ) : List ℤ :=
  let m0 := g.map fun a => if g.count a = 1 then a else 0
  let case2 := (List.range g.length).filter fun j => g.count (g.getD j 0) = 2
  case2.foldl (adjustStep g) m0

/-! ## `reduce_by_date` -/

section
variable {α D : Type} [LinearOrder D]

/-- Index of the first maximum: `versions.index(max(versions))` (time.py:322). -/
def argmaxIdx (vs : List ℤ) : ℕ :=
  match vs.max? with
  | none => 0
  | some mx => vs.idxOf mx

/-- Body of the loop over the unique dates (time.py:303-323): the file appended for
date `d`.  The regular expressions are abstracted to `date` (`parse_grace_file`, the
pair of start and end dates) and `ver` (the integer file version). -/
def pickNewest (date : α → D) (ver : α → ℤ) (granules : List α) (d : D) : Option α :=
  let dateList := granules.map date
  if dateList.count d = 1 then granules[dateList.idxOf d]?
  else if 2 ≤ dateList.count d then
    let indices := (List.range dateList.length).filter fun i => dateList[i]? = some d
    let versions := indices.filterMap fun i => (granules[i]?).map ver
    indices[argmaxIdx versions]?.bind (granules[·]?)
  else none

/-- `reduce_by_date` (time.py:279-325). `sorted(set(date_list))` is the sorted
duplicate-free list of dates. -/
def reduceByDate (date : α → D) (ver : α → ℤ) (granules : List α) : List α :=
  let dateList := granules.map date
  let uniq := dateList.dedup.insertionSort (· ≤ ·)
  uniq.foldl (fun acc d =>
    match pickNewest date ver granules d with
    | some f => acc ++ [f]
    | none => acc) []
end

end Verif.Time
