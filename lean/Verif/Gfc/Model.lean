import Verif.Names.Regex
import Verif.Dates.Model
import Verif.Time.Parse
import Verif.SLR.Text

/-!
# Dates in the names of gfc files

Model of `parse_gfc_file` (time.py:207-277), of the dates computed by `read_gfc_harmonics`
(read_gfc_harmonics.py:81-217), of the branch of `grace_date` for GRAZ and Swarm (grace_date.py:184-201) and of
`harmonics.from_gfc` (harmonics.py:486-537).

Names are lists of characters.  `re.IGNORECASE` is modelled for ASCII letters (Python also identifies a few other
letters with ASCII letters), `\d` for ASCII digits.  `re.VERBOSE` has no effect on these patterns.  `dateutil`'s parser
is the parameter `parse`, `none` standing for its `ValueError`.  The reader of the coefficients in the external package
`geoid_toolkit` is not modelled.  Dates are exact rationals.
-/
namespace Verif.Gfc
open Verif.Names Verif.Time Verif.Dates Verif.SLR

/-- file names -/
abbrev Name := List Char

/-- `c` in a pattern with or without `re.IGNORECASE` -/
def sameChar (ci : Bool) (c d : Char) : Bool := if ci = true then c.toLower == d.toLower else c == d

/-- a literal in a pattern with or without `re.IGNORECASE` -/
def litF (ci : Bool) (w : List Char) : Re := w.foldr (fun c e => .seq (.chr (sameChar ci c)) e) .eps

/-- `itsg_products` (time.py:236-244, read_gfc_harmonics.py:144-152) -/
def itsgProducts : List String :=
  ["atmosphere", "dealiasing", "oceanBottomPressure", "ocean", "Grace2014", "Grace2016", "Grace2018", "Grace_operational"]

/-- `(AOD1B_RL\d+|model|ITSG)[-_](atmosphere|...)(_n\d+)?_(\d+)-(\d+)(\.gfc)` (time.py:245-246,
read_gfc_harmonics.py:153-154) -/
def itsgRe (ci : Bool) : Re := cat
  [.grp 1 (oneOf [cat [litF ci "AOD1B_RL".toList, digits], litF ci "model".toList, litF ci "ITSG".toList]),
   .chr (fun c => c == '-' || c == '_'),
   .grp 2 (oneOf (itsgProducts.map fun p => litF ci p.toList)),
   opt (.grp 3 (cat [litF ci "_n".toList, digits])),
   litF ci "_".toList, .grp 4 digits, litF ci "-".toList, .grp 5 digits, .grp 6 (litF ci ".gfc".toList)]

/-- `(\.gfc|\.ZIP)` -/
def suffixRe (ci : Bool) : Re := .alt (litF ci ".gfc".toList) (litF ci ".ZIP".toList)

/-- `(SW)_(.*?)_(EGF_SHA_2)__(.*?)_(.*?)_(.*?)(\.gfc|\.ZIP)` (time.py:258, read_gfc_harmonics.py:156) -/
def swarmRe (ci : Bool) : Re := cat
  [.grp 1 (litF ci "SW".toList), litF ci "_".toList, .grp 2 (.many false anyChar), litF ci "_".toList,
   .grp 3 (litF ci "EGF_SHA_2".toList), litF ci "__".toList, .grp 4 (.many false anyChar), litF ci "_".toList,
   .grp 5 (.many false anyChar), litF ci "_".toList, .grp 6 (.many false anyChar), .grp 7 (suffixRe ci)]

/-- `(GAA|GAB|GAC|GAD)_Swarm_(\d+)_(\d{2})_(\d{4})(\.gfc|\.ZIP)` (time.py:267-268, read_gfc_harmonics.py:157) -/
def swarmModelRe (ci : Bool) : Re := cat
  [.grp 1 (oneOf (["GAA", "GAB", "GAC", "GAD"].map fun p => litF ci p.toList)), litF ci "_Swarm_".toList, .grp 2 digits,
   litF ci "_".toList, .grp 3 (times 2 digit), litF ci "_".toList, .grp 4 (times 4 digit), .grp 5 (suffixRe ci)]

/-- what the functions raise -/
inductive Raised where
  /-- `IndexError` of `[].pop()`: the name does not match -/
  | noMatch
  /-- `IndexError` of `dpm[int(month)-1]` -/
  | noMonth
  /-- `ValueError` of `parse_date_string` -/
  | noDate
  /-- `ValueError` of unpacking the wrong number of groups -/
  | unpack
  /-- `UnboundLocalError`: none of the branches was taken -/
  | unbound
  /-- `KeyError` -/
  | noKey
deriving DecidableEq

/-- `[year,month,day,hour,minute,second]` -/
structure Clock where
  year : ℤ
  month : ℤ
  day : ℚ
  hour : ℚ
  minute : ℚ
  second : ℚ
deriving DecidableEq

/-- `calendar_days`, which never returns `None` (C02) -/
def dpm (y : ℤ) : List ℚ := (calendarDays y).getD []

/-- the start and end dates of the month of a file (time.py:252-255 and 274-277, read_gfc_harmonics.py:165-169):
`dpm[int(month)-1]` with Python's negative indices -/
def monthDates (y m : ℤ) : Except Raised (Clock × Clock) :=
  match pyIdx (dpm y) (m - 1) with
  | some d => .ok (⟨y, m, 1, 0, 0, 0⟩, ⟨y, m, d, 23, 59, 59⟩)
  | none => .error .noMonth

/-- `parse_date_string(...)` without the conversion factor -/
def dateOf (parse : Name → Option Clock) (s : Name) : Except Raised Clock :=
  match parseDateString parse s with
  | .ok (c, _) => .ok c
  | .error _ => .error .noDate

/-- the GRAZ branch (time.py:233-255) -/
def itsgDates (name : Name) : Except Raised (Clock × Clock) :=
  match (findall (itsgRe true) name).getLast? with
  | none => .error .noMatch
  | some g => monthDates (digitsVal (group g 4)) (digitsVal (group g 5))

/-- the branch of the Swarm gravity fields (time.py:256-264) -/
def swarmDates (parse : Name → Option Clock) (name : Name) : Except Raised (Clock × Clock) :=
  match (findall (swarmRe true) name).getLast? with
  | none => .error .noMatch
  | some g => do
    let s ← dateOf parse (group g 4)
    let e ← dateOf parse (group g 5)
    pure (s, e)

/-- the branch of the Swarm models (time.py:265-277) -/
def swarmModelDates (name : Name) : Except Raised (Clock × Clock) :=
  match (findall (swarmModelRe true) name).getLast? with
  | none => .error .noMatch
  | some g => monthDates (digitsVal (group g 4)) (digitsVal (group g 3))

/-- `parse_gfc_file(granule, PROC, DSET)` (time.py:207-277) for a base name -/
def parseGfc (parse : Name → Option Clock) (name : Name) (PROC DSET : String) : Except Raised (Clock × Clock) :=
  if PROC = "GRAZ" then itsgDates name
  else if PROC = "Swarm" ∧ DSET = "GSM" then swarmDates parse name
  else if PROC = "Swarm" ∧ DSET ≠ "GSM" then swarmModelDates name
  else .error .unbound

/-- `np.sum(dpm[:k])` with Python's negative indices -/
def sumTo (l : List ℚ) (k : ℤ) : ℚ := (l.take (if 0 ≤ k then k.toNat else (l.length + k).toNat)).sum

/-- day of the year (grace_date.py:195-198, read_gfc_harmonics.py:195-198); `d` are the month lengths of the start year -/
def dayOf (d : List ℚ) (c : Clock) : ℚ :=
  sumTo d (c.month - 1) + c.day + c.hour / 24 + c.minute / 1440 + c.second / 86400

/-- `start_yr`, `end_yr`, `start_day` and `end_day` of `grace_date` (grace_date.py:184-198) -/
def fileDates (s e : Clock) : FileDates :=
  { startYr := s.year, startDay := dayOf (dpm s.year) s, endYr := e.year, endDay := dayOf (dpm s.year) e }

/-- what `read_gfc_harmonics` adds to the model, and whether the file is read as a zip file -/
structure Dated where
  zip : Bool
  time : ℚ
  start : ℚ
  end_ : ℚ
deriving DecidableEq

/-- `2400000.5 + convert_calendar_dates(..., epoch=(1858,11,17,0,0,0))` (read_gfc_harmonics.py:206-213) -/
def julian (c : Clock) : ℚ :=
  2400000.5 + convertCalendarDates c.year c.month c.day c.hour c.minute c.second 0

/-- read_gfc_harmonics.py:187-213, from the suffix and the dates; `d` are the month lengths found in the branch -/
def dated (sfx : Name) (d : List ℚ) (s e : Clock) : Dated :=
  let startDay := dayOf d s
  let endDay := dayOf d e
  let endCyclic := ((e.year - s.year : ℤ) : ℚ) * d.sum + endDay
  let midDay := (startDay + endCyclic) / 2
  { zip := !(findall (litF true "ZIP".toList) sfx).isEmpty, time := s.year + midDay / d.sum, start := julian s, end_ := julian e }

/-- the dates found by `read_gfc_harmonics(input_file)` (read_gfc_harmonics.py:136-213) in the name of the file.  The
branch is chosen without `re.IGNORECASE`, the groups are found with it; the branch of the Swarm models searches the
pattern of the Swarm data, so that `pop` raises or seven groups are unpacked into five names. -/
def readGfc (parse : Name → Option Clock) (name : Name) : Except Raised Dated :=
  if accepts (itsgRe false) name = true then
    match (findall (itsgRe true) name).getLast? with
    | none => .error .noMatch
    | some g =>
      match monthDates (digitsVal (group g 4)) (digitsVal (group g 5)) with
      | .error r => .error r
      | .ok (s, e) => .ok (dated (group g 6) (dpm (digitsVal (group g 4))) s e)
  else if accepts (swarmRe false) name = true then
    match (findall (swarmRe true) name).getLast? with
    | none => .error .noMatch
    | some g =>
      match dateOf parse (group g 4) with
      | .error r => .error r
      | .ok s =>
        match dateOf parse (group g 5) with
        | .error r => .error r
        | .ok e => .ok (dated (group g 7) (dpm s.year) s e)
  else if accepts (swarmModelRe false) name = true then
    match (findall (swarmRe true) name).getLast? with
    | none => .error .noMatch
    | some _ => .error .unpack
  else .error .unbound

/-- the dates of a `harmonics` object -/
structure HarmDates where
  time : Option ℚ
  month : Option ℤ
deriving DecidableEq

/-- the date part of `from_gfc` (harmonics.py:511-533).  `keys` are the keys of the dictionary of
`geoidtk.read_ICGEM_harmonics`, to which `read_gfc_harmonics` adds `time`, `start` and `end`; `month` is the value
under the key 'month', if there is one.  Without dates nothing is set. -/
def fromGfcDates (parse : Name → Option Clock) (keys : List String) (month : ℤ) (name : Name) (date : Bool) :
    Except Raised HarmDates :=
  if date = true then
    match readGfc parse name with
    | .error r => .error r
    | .ok d => if "month" ∈ keys ++ ["time", "start", "end"] then .ok ⟨some d.time, (adjustMonths [month]).head?⟩
        else .error .noKey
  else .ok ⟨none, none⟩

end Verif.Gfc
