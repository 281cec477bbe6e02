import Verif.Time.Model

/-!
# Model of `grace_date.py`, `grace_find_months.py` and the month selection of
`grace_input_months.py`
-/
namespace Verif.Dates
open Verif.Time

/-- The dates of one data file: start/end year and (one-based) start/end day of the
year, as parsed from the file name (`parse_grace_file`, time.py:176-204; for GRAZ and
Swarm grace_date.py:184-201 computes the days from the month lengths). -/
structure FileDates where
  startYr : ℤ
  startDay : ℚ
  endYr : ℤ
  endDay : ℚ
deriving DecidableEq

/-- `dpy` (grace_date.py:212). `calendar_days` never returns `None` (C02), the default
is never used. -/
def dpy (f : FileDates) : ℚ := ((calendarDays f.startYr).map List.sum).getD 0

/-- `end_cyclic` (grace_date.py:214). -/
def endCyclic (f : FileDates) : ℚ := ((f.endYr - f.startYr : ℤ) : ℚ) * dpy f + f.endDay

/-- `mid_day[t]` (grace_date.py:216). -/
def midDay (f : FileDates) : ℚ := (f.startDay + endCyclic f) / 2

/-- `cal_date` (grace_date.py:219-222). -/
def calDate (f : FileDates) : CalDate :=
  convertJulian (convertCalendarDates f.startYr 1 (midDay f) 0 0 0 0 + 2400000.5)

/-- `tdec[t]` (grace_date.py:225). -/
def tdec (f : FileDates) : ℚ := f.startYr + midDay f / dpy f

/-- `count` (grace_date.py:228-236): days of the years 2002, ..., start year - 1
(`range` of a negative number is empty). -/
def priorDays (startYr : ℤ) : ℚ :=
  ((List.range (startYr - 2002).toNat).map fun iyr : ℕ =>
    ((calendarDays (2002 + iyr)).map List.sum).getD 0).sum

/-- `tot_days[t]` (grace_date.py:239). -/
def totDays (f : FileDates) : ℚ :=
  ((priorDays f.startYr + f.startDay) + (priorDays f.startYr + endCyclic f)) / 2

/-- `mon[t]` before adjustment (grace_date.py:242-249); `cnes` is the condition
`PROC == 'CNES' and DREL in ('RL01','RL02')`, `first` the first file of the index. -/
def rawMonth (cnes : Bool) (first f : FileDates) : ℤ :=
  if cnes then npRound (1 + (totDays f - totDays first) / 10)
  else calendarToGrace (calDate f).year (calDate f).month

/-- The adjusted months of all files of the index (grace_date.py:176-257). -/
def months (cnes : Bool) (fs : List FileDates) : List ℤ :=
  adjustMonths (fs.map fun f => rawMonth cnes (fs.headD f) f)

/-- The dictionary built by `grace_files[mon[t]] = file` (grace_date.py:267-272):
a later assignment to the same key replaces the earlier one. -/
def buildDict {N : Type} (ms : List ℤ) (names : List N) : ℤ → Option N :=
  (ms.zip names).foldl (fun d (p : ℤ × N) => Function.update d p.1 (some p.2)) (fun _ => none)

/-- `grace_date` (grace_date.py:113-287) without the output file. -/
def graceDate {N : Type} (cnes : Bool) (files : List (N × FileDates)) : ℤ → Option N :=
  buildDict (months cnes (files.map Prod.snd)) (files.map Prod.fst)

/-- Output of `grace_find_months` without the decimal dates. -/
structure MonthInfo where
  start : ℤ
  end_ : ℤ
  missing : List ℤ
  months : List ℤ
deriving DecidableEq

/-- `np.arange(1, end)`. -/
def arange1 (e : ℤ) : List ℤ := (List.range (e - 1).toNat).map fun i : ℕ => (i : ℤ) + 1

/-- `grace_find_months` (grace_find_months.py:121-141), from the month column of the
date file. `sorted(set(all) - set(months))` of the increasing list `all` is a filter.
`none` is the `ValueError` of `np.min` of an empty column. -/
def findMonths (cnes : Bool) (mons : List ℤ) : Option MonthInfo :=
  match mons.min?, mons.max? with
  | some s, some e =>
    let missing := (arange1 e).filter fun m => m ∉ mons
    some { start := s, end_ := e, missing := if cnes then missing else missing.drop 3,
           months := mons }
  | _, _ => none

/-- The months read by `grace_input_months` (grace_input_months.py:345):
`sorted(set(np.arange(start_mon,end_mon+1)) - set(missing))`. -/
def inputMonths (start_ end_ : ℤ) (missing : List ℤ) : List ℤ :=
  ((List.range (end_ + 1 - start_).toNat).map fun i : ℕ => start_ + (i : ℤ)).filter
    fun m => m ∉ missing

end Verif.Dates
