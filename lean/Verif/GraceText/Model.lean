import Verif.Names.Parse
import Verif.Input.Model
import Verif.Dates.Model
import Verif.LoveText.Model
import Verif.HarmIO.Format
import Verif.Dealias.Model

/-!
# Level-2 files at the level of characters

Model of `read_GRACE_harmonics.py` from the name and the text of the file, and of `dealiasing.to_SHM`
(dealiasing_monthly_mean.py:434-695), which writes files of the same kind.

Numbers are exact rationals; the arithmetic on the numbers of the lines is `Verif.Input.readGrace`.  `none` is an exception.
Simplifications: negative degrees or orders (which Python counts from the end of the arrays) are treated as exceptions;
`str.split` separates at blanks, tabs and line ends only; PyYAML is the parameter `yaml`, and top-level keys of the header
that replace other entries of the output are not modelled; compression is not modelled.
-/
namespace Verif.GraceText
open Verif.SLR Verif.Names Verif.Input Verif.Dates Verif.Time Verif.SpatialIO
open Verif.HarmIO (sciParts expDigits fmtD)

/-- file names -/
abbrev Name := List Char

/-! ## Reader -/

/-- the parts of the name that are used (groups 1-7, 9 and 11) -/
structure Parts where
  pfx : Name
  sy : Name
  sd : Name
  ey : Name
  ed : Name
  n : Name
  prc : Name
  drl : Name
  sfx : Name
deriving DecidableEq

/-- `parse_file` (read_GRACE_harmonics.py:292-321); `none`: `pop` from an empty list -/
def parseFile (name : Name) : Option Parts :=
  (findall parsePattern name).getLast?.map fun g =>
    ⟨group g 1, group g 2, group g 3, group g 4, group g 5, group g 6, group g 7, group g 9, group g 11⟩

/-- `PFX.startswith('kfilter_DDK')` -/
def isDDK (p : Parts) : Bool := "kfilter_DDK".toList.isPrefixOf p.pfx

/-- `(GSM|GAA|GAB|GAC|GAD)` -/
def productRe : Re := .grp 1 (oneOf (["GSM", "GAA", "GAB", "GAC", "GAD"].map fun s => lit s.toList))

/-- `DSET` (read_GRACE_harmonics.py:127-150); `none`: unpacking of none or of several products -/
def dsetOf (p : Parts) : Option Name :=
  if p.prc = "JPLMSC".toList then some "GSM".toList
  else if isDDK p = true then some "GSM".toList
  else
    match findall productRe p.pfx with
    | [g] => some (group g 1)
    | _ => none

/-- `FLAG` (read_GRACE_harmonics.py:127-150) -/
def flagOf (p : Parts) : Name :=
  if p.prc = "JPLMSC".toList then "GRCOF2".toList
  else if isDDK p = true then "gfc".toList
  else if p.prc = "COSTG".toList ∨ p.sfx = ".gfc".toList then "gfc".toList
  else "GRCOF2".toList

/-- the processing centers of the pole tide correction (read_GRACE_harmonics.py:254, 275) -/
def centerOf (p : Parts) : Center :=
  if p.prc ∈ ["UTCSR", "JPLEM", "JPLMSC"].map String.toList then .csrJpl
  else if p.prc ∈ ["EIGEN", "GFZOP"].map String.toList then .gfz
  else .other

/-- the dates of the name (read_GRACE_harmonics.py:154-159) -/
def datesOf (p : Parts) : FileDates :=
  ⟨digitsVal p.sy, digitsVal p.sd, digitsVal p.ey, digitsVal p.ed⟩

/-- `time` (read_GRACE_harmonics.py:160-170) -/
def timeOf (d : FileDates) : ℚ :=
  let dpy := ((calendarDays d.startYr).getD []).sum
  let endCyclic := ((d.endYr - d.startYr : ℤ) : ℚ) * dpy + d.endDay
  let midDay := (d.startDay + endCyclic) / 2
  d.startYr + midDay / dpy

/-- `2400000.5 + convert_calendar_dates(year,1.0,day,epoch=(1858,11,17,0,0,0))` (read_GRACE_harmonics.py:172-177) -/
def julianOf (year : ℤ) (day : ℚ) : ℚ := 2400000.5 + convertCalendarDates year 1 day 0 0 0 0

/-- `np.int64(line_contents[k])` as an index -/
def indexAt (line : List Char) (k : ℕ) : Option ℕ :=
  ((split line)[k]?.bind pyInt).bind fun i => if 0 ≤ i then some i.toNat else none

/-- `np.float64(line_contents[k])` -/
def floatAt (line : List Char) (k : ℕ) : Option ℚ := (split line)[k]?.bind pyFloat

/-- four values of a data line (read_GRACE_harmonics.py:224-227) -/
def coefOf (line : List Char) (l m : ℕ) : Option (FileLine ℚ) :=
  match floatAt line 3, floatAt line 4, floatAt line 5, floatAt line 6 with
  | some c, some s, some ec, some es => some (.coef l m c s ec es)
  | _, _, _, _ => none

/-- two values of a line with drift rates (read_GRACE_harmonics.py:235-236) -/
def driftOf (line : List Char) (l m : ℕ) : Option (FileLine ℚ) :=
  match floatAt line 3, floatAt line 4 with
  | some c, some s => some (.drift l m c s)
  | _, _ => none

/-- a line of the file (read_GRACE_harmonics.py:214-236); data lines outside of the truncation have no effect and their
values are not looked at -/
def parseLine (flag : Name) (LMAX MMAX : ℕ) (line : List Char) : Option (FileLine ℚ) :=
  if flag.isPrefixOf line then
    match indexAt line 1, indexAt line 2 with
    | some l, some m => if l ≤ LMAX ∧ m ≤ MMAX then coefOf line l m else some .other
    | _, _ => none
  else if "GRDOTA".toList.isPrefixOf line then
    match indexAt line 1, indexAt line 2 with
    | some l, some m => driftOf line l m
    | _, _ => none
  else some .other

/-- `\"(.*?)\:\s(.*?)\"` (read_GRACE_harmonics.py:198) -/
def quoteRe : Re :=
  cat [lit ['"'], .grp 1 (.many false anyChar), lit [':'], .chr isSpace, .grp 2 (.many false anyChar), lit ['"']]

/-- `re.sub` of the colons within quotations, with fuel -/
def subQuotes : ℕ → List Char → List Char
  | 0, s => s
  | _ + 1, [] => []
  | n + 1, c :: s =>
    match runs quoteRe (c :: s) with
    | x :: _ => '"' :: (group x.1 1 ++ [',', ' '] ++ group x.1 2 ++ ['"'] ++ subQuotes n x.2)
    | [] => c :: subQuotes n s

/-- `head` (read_GRACE_harmonics.py:198-199) -/
def headOf (flag : Name) (lines : List (List Char)) : List (List Char) :=
  (lines.filter fun x => !(flag.isPrefixOf x) && !("GRDOTA".toList.isPrefixOf x)).map fun x => subQuotes x.length x

/-- parameters in the header of a gfc file (read_GRACE_harmonics.py:202-203) -/
def parameters : List String :=
  ["modelname", "earth_gravity_constant", "radius", "max_degree", "errors", "norm", "tide_system"]

/-- `i[0]` and `i[1]` of `l.split(maxsplit=1)` (read_GRACE_harmonics.py:205-206); `none`: `IndexError` -/
def keyValue (line : List Char) : Option (List Char × List Char) :=
  let r := line.dropWhile isSpace
  let v := (r.dropWhile fun c => !isSpace c).dropWhile isSpace
  if v = [] then none else some (r.takeWhile (fun c => !isSpace c), v)

/-- the dictionary of the header of a gfc file (read_GRACE_harmonics.py:204-206): later lines replace earlier ones -/
def gfcHeader (head : List (List Char)) : Option (List Char → Option (List Char)) :=
  ((head.filter fun x => parameters.any fun p => p.toList.isPrefixOf x).mapM keyValue).map fun kvs k =>
    kvs.reverse.lookup k

/-- `l.rstrip()` -/
def rstrip (cs : List Char) : List Char := (cs.reverse.dropWhile isSpace).reverse

/-- the header in the output -/
inductive Header (Y : Type) where
  | gfc (d : List Char → Option (List Char))
  | yaml (y : Y)
  | plain (lines : List (List Char))

/-- the header (read_GRACE_harmonics.py:200-211); `drel` is the release -/
def headerOf {Y : Type} (yaml : List Char → Option Y) (p : Parts) (lines : List (List Char)) : Option (Header Y) :=
  let head := headOf (flagOf p) lines
  if p.sfx = ".gfc".toList then (gfcHeader head).map .gfc
  else if (p.n = "GRAC".toList ∧ 6 ≤ digitsVal p.drl) ∨ p.n = "GRFO".toList then
    (yaml (['\n'].intercalate head)).map .yaml
  else some (.plain ((head.filter (· ≠ [])).map rstrip))

/-- the output -/
structure Grace (Y : Type) where
  time : ℚ
  start : ℚ
  stop : ℚ
  header : Header Y
  data : L2 ℚ

/-- the coefficients, for the parts of the name (read_GRACE_harmonics.py:179-284) -/
def readData (p : Parts) (dset : Name) (LMAX MMAX : ℕ) (pole : Bool) (lines : List (List Char)) : Option (L2 ℚ) :=
  match lines.mapM (parseLine (flagOf p) LMAX MMAX) with
  | none => none
  | some ls =>
    (readGrace (decide (digitsVal p.drl = 4)) (decide (dset = "GSM".toList)) pole (centerOf p) (timeOf (datesOf p))
      LMAX MMAX ls).toOption

/-- `read_GRACE_harmonics(input_file, LMAX, MMAX=MMAX, POLE_TIDE=pole)` for the name and the text of the file
(read_GRACE_harmonics.py:79-289, 323-350) -/
def readFile {Y : Type} (yaml : List Char → Option Y) (name : Name) (text : List Char) (LMAX : ℕ) (MMAX : Option ℕ)
    (pole : Bool) : Option (Grace Y) :=
  match parseFile name with
  | none => none
  | some p =>
    match dsetOf p, headerOf yaml p (LoveText.splitlines text),
        (dsetOf p).bind fun d => readData p d LMAX (MMAX.getD LMAX) pole (LoveText.splitlines text) with
    | some _, some h, some d =>
      some ⟨timeOf (datesOf p), julianOf (datesOf p).startYr (datesOf p).startDay,
        julianOf (datesOf p).endYr (datesOf p).endDay, h, d⟩
    | _, _, _ => none

/-! ## Writer -/

/-- a `dealiasing` object (dealiasing_monthly_mean.py:405-432); the dates are `[year, month, day]` as text -/
structure Shm where
  lmax : ℕ
  mmax : ℕ
  clm : ℕ → ℕ → ℚ
  slm : ℕ → ℕ → ℚ
  month : ℕ
  center : Name
  release : Name
  product : Name
  startTime : Name × Name × Name
  endTime : Name × Name × Name

/-- `'{0:+w.pE}'.format(x)` -/
def fmtEC (w p : ℕ) (x : ℚ) : List Char :=
  let m := (sciParts p x).1
  let e := (sciParts p x).2
  let d := expDigits e.natAbs
  pad w ((if x < 0 then '-' else '+') :: (natDigits (m / 10 ^ p)).map dchar ++ '.' :: (lastDigits p m).map dchar ++
    'E' :: (if e < 0 then '-' else '+') :: (d.1 :: d.2).map dchar)

/-- `'{0}{1}{2}.0000'.format(*time)` (dealiasing_monthly_mean.py:460-461) -/
def dateText (t : Name × Name × Name) : List Char := t.1 ++ t.2.1 ++ t.2.2 ++ ".0000".toList

/-- `'{0}-{1}-{2}'.format(*time)` (dealiasing_monthly_mean.py:609, 611) -/
def dashText (t : Name × Name × Name) : List Char := t.1 ++ "-".toList ++ t.2.1 ++ "-".toList ++ t.2.2

/-- a data line (dealiasing_monthly_mean.py:457-467) -/
def dataLine (o : Shm) (l m : ℕ) : List Char :=
  [' '].intercalate ["GRCOF2".toList, fmtD 4 l, fmtD 4 m, fmtEC 18 12 (o.clm l m), fmtEC 18 12 (o.slm l m),
    "0.0000E+00".toList, "0.0000E+00".toList, dateText o.startTime, dateText o.endTime, "nnnn".toList]

/-- `'{0:w}'.format(s)` for text -/
def ljust (w : ℕ) (s : List Char) : List Char := s ++ List.replicate (w - s.length) ' '

/-- `'  {0}:'` -/
def line2 (k : String) : List Char := "  ".toList ++ k.toList ++ ":".toList

/-- `'    {0:22}:'` -/
def line4 (k : String) : List Char := "    ".toList ++ ljust 22 k.toList ++ ":".toList

/-- `'    {0:22}: {1}'` -/
def line4v (k : String) (v : List Char) : List Char := line4 k ++ " ".toList ++ v

/-- `'      {0:20}:'` -/
def line6 (k : String) : List Char := "      ".toList ++ ljust 20 k.toList ++ ":".toList

/-- `'      {0:20}: {1}'` -/
def line6v (k : String) (v : String) : List Char := line6 k ++ " ".toList ++ v.toList

/-- `print_header` (dealiasing_monthly_mean.py:472-479): the order is that of `lmax` -/
def printHeader (o : Shm) : List (List Char) :=
  ["header:".toList, line2 "dimensions", line4v "degree" (fmtD 0 o.lmax), line4v "order" (fmtD 0 o.lmax), []]

/-- `print_harmonic` (dealiasing_monthly_mean.py:482-515) -/
def printHarmonic (o : Shm) : List (List Char) :=
  [line2 "non-standard_attributes", line4v "product_id" (o.product ++ "-2".toList), line4 "format_id",
    line6v "short_name" "SHM", line6v "long_name" "Earth Gravity Spherical Harmonic Model Format",
    line4v "normalization" "fully normalized".toList, line4 "earth_gravity_param",
    line6v "long_name" "gravitational constant times mass of Earth", line6v "units" "m3/s2",
    line6v "value" "3.9860044180E+14", line4 "mean_equator_radius", line6v "long_name" "mean equator radius",
    line6v "units" "meters", line6v "value" "6.3781366000E+06", []]

/-- `summaries` (dealiasing_monthly_mean.py:537-562); `none`: `KeyError` -/
def summaryOf (product : Name) : Option String :=
  if product = "GAA".toList then some ("Spherical harmonic coefficients that represent " ++
    "anomalous contributions of the non-tidal atmosphere to the Earth's " ++
    "mean gravity field during the specified timespan. This includes the " ++
    "contribution of atmospheric surface pressure over the continents, " ++
    "the static contribution of atmospheric pressure to ocean bottom " ++
    "pressure elsewhere, and the contribution of upper-air density " ++
    "anomalies above both the continents and the oceans.")
  else if product = "GAB".toList then some ("Spherical harmonic coefficients that represent " ++
    "anomalous contributions of the non-tidal dynamic ocean to ocean " ++
    "bottom pressure during the specified timespan.")
  else if product = "GAC".toList then some ("Spherical harmonic coefficients that represent " ++
    "the sum of the ATM (or GAA) and OCN (or GAB) coefficients during " ++
    "the specified timespan. These coefficients represent anomalous " ++
    "contributions of the non-tidal dynamic ocean to ocean bottom " ++
    "pressure, the non-tidal atmospheric surface pressure over the " ++
    "continents, the static contribution of atmospheric pressure to " ++
    "ocean bottom pressure, and the upper-air density anomalies above " ++
    "both the continents and the oceans.")
  else if product = "GAD".toList then some ("Spherical harmonic coefficients that are zero " ++
    "over the continents, and provide the anomalous simulated ocean " ++
    "bottom pressure that includes non-tidal air and water " ++
    "contributions elsewhere during the specified timespan. These " ++
    "coefficients differ from GLO (or GAC) coefficients over the " ++
    "ocean domain by disregarding upper air density anomalies.")
  else none

/-- `keywords` (dealiasing_monthly_mean.py:565-588) -/
def keywordsOf (fo : Bool) : String :=
  ", ".intercalate (["GRACE"] ++ (if fo then ["GRACE-FO"] else []) ++ ["Level-2", "SHM", "Spherical Harmonic Model",
    "Gravitational Field", "GSM", "Geopotential", "Gravity Field", "Mass", "Mass Transport", "Total Water Storage",
    "Time Variable Gravity", "Mass Balance", "Gravity Anomaly", "Satellite Geodesy", "Ocean", "Ocean Bottom Pressure", "AOD",
    "Atmosphere", "Non-tidal Atmosphere", "Dealiasing Product"])

/-- `institution` (dealiasing_monthly_mean.py:591-599) -/
def institutionOf (center : Name) : String :=
  if center = "CSR".toList then "UT-AUSTIN/CSR"
  else if center = "JPL".toList then "NASA/JPL"
  else "GFZ German Research Centre for Geosciences"

/-- `print_global` (dealiasing_monthly_mean.py:518-615) -/
def printGlobal (o : Shm) (summary : String) (today : List Char) : List (List Char) :=
  let fo : Bool := decide (186 < o.month)
  let mission := if fo then "GRACE-FO" else "GRACE"
  let project := if fo then "NASA Gravity Recovery And Climate Experiment Follow-On (GRACE-FO)"
    else "NASA Gravity Recovery And Climate Experiment (GRACE)"
  let thanks := if fo then "GRACE-FO is a joint mission of the US National Aeronautics and Space Administration and the " ++
      "German Research Center for Geosciences."
    else "GRACE is a joint mission of NASA (USA) and DLR (Germany)."
  [line2 "global_attributes",
    line4v "title" (mission.toList ++ " Geopotential ".toList ++ o.product ++ " Coefficients ".toList ++ o.center ++
      " ".toList ++ o.release),
    line4v "summary" summary.toList, line4v "project" project.toList, line4v "keywords" (keywordsOf fo).toList,
    line4v "keywords_vocabulary" "NASA Global Change Master Directory (GCMD) Science Keywords".toList,
    line4v "institution" (institutionOf o.center).toList,
    line4v "source" ("All data from AOD1B ".toList ++ o.release), line4v "processing_level" "2".toList,
    line4v "acknowledgement" thanks.toList, line4v "product_version" ("Release-".toList ++ o.release.drop 2),
    line4 "references", line4v "time_coverage_start" (dashText o.startTime), line4v "time_coverage_end" (dashText o.endTime),
    line4v "date_created" today, []]

/-- one of the variables (dealiasing_monthly_mean.py:621-662) -/
def variable4 (name long data comment : String) : List (List Char) :=
  [line4 name, line6v "long_name" long, line6v "data_type" data, line6v "comment" comment]

/-- one of the dates (dealiasing_monthly_mean.py:663-676) -/
def variable5 (name long data comment : String) : List (List Char) :=
  [line4 name, line6v "long_name" long, line6v "time_format" "yyyymmdd.hhmm", line6v "data_type" data,
    line6v "comment" comment]

/-- `print_variables` (dealiasing_monthly_mean.py:618-695) -/
def printVariables : List (List Char) :=
  [line2 "variables"] ++
  variable4 "record_key" "Earth Gravity Spherical Harmonic Model Format Type 2" "string" "1st column" ++
  variable4 "degree_index" "spherical harmonic degree l" "integer" "2nd column" ++
  variable4 "order_index" "spherical harmonic order m" "integer" "3rd column" ++
  variable4 "clm" "Clm coefficient; cosine coefficient for degree l and order m" "double precision" "4th column" ++
  variable4 "slm" "Slm coefficient; sine coefficient for degree l and order m" "double precision" "5th column" ++
  variable4 "clm_std_dev" "standard deviation of Clm" "double precision" "6th column" ++
  variable4 "slm_std_dev" "standard deviation of Slm" "double precision" "7th column" ++
  variable5 "epoch_begin_time" "epoch begin of Clm, Slm coefficients" "double precision" "8th column" ++
  variable5 "epoch_stop_time" "epoch stop of Clm, Slm coefficients" "double precision" "9th column" ++
  [line4 "solution_flags", line6v "long_name" "Coefficient adjustment and a priori flags",
    line6v "coverage_content_type" "auxiliaryInformation", line6v "data_type" "byte", line6 "flag_meanings",
    "        - char 0 = Clm adjusted, y for yes and n for no".toList,
    "        - char 1 = Slm adjusted, y for yes and n for no".toList,
    "        - char 2 = stochastic a priori info for Clm, y for yes and n for no".toList,
    "        - char 3 = stochastic a priori info for Slm, y for yes and n for no".toList,
    line6v "comment" "10th column", [], [], "# End of YAML header".toList]

/-- the header of the file -/
def shmHeader (o : Shm) (summary : String) (today : List Char) : List (List Char) :=
  printHeader o ++ printHarmonic o ++ printGlobal o summary today ++ printVariables

/-- the data lines, order by order (dealiasing_monthly_mean.py:463-467) -/
def shmData (o : Shm) : List (List Char) :=
  (List.range (o.mmax + 1)).flatMap fun m : ℕ => ((List.range (o.lmax + 1)).drop m).map fun l : ℕ => dataLine o l m

/-- text of the file written by `to_SHM` (dealiasing_monthly_mean.py:434-469) on the day `today`; `none`: `KeyError` -/
def toSHM (o : Shm) (today : List Char) : Option (List Char) :=
  (summaryOf o.product).map fun s => ((shmHeader o s today ++ shmData o).map (· ++ ['\n'])).flatten

/-- the object that `dealiasing_monthly_mean` writes for a month (dealiasing_monthly_mean.py:350-368): `first` and `last`
are the first and the last day -/
def shmOf (j : Dealias.Job) (L gm : ℕ) (clm slm : ℕ → ℕ → ℚ) (first last : ℕ × ℕ × ℕ) : Shm :=
  let txt : ℕ × ℕ × ℕ → Name × Name × Name := fun d => (Dealias.zpad 4 d.1, Dealias.zpad 2 d.2.1, Dealias.zpad 2 d.2.2)
  ⟨L, L, clm, slm, gm, j.proc, j.drel, j.dset, txt first, txt last⟩

/-- `{DSET}-2(.*?)\.gz` (dealiasing_monthly_mean.py:392) -/
def indexRe (dset : Name) : Re := cat [lit (dset ++ "-2".toList), .grp 1 (.many false anyChar), lit ".gz".toList]

/-- the lines of the index (dealiasing_monthly_mean.py:388-399) -/
def shmIndex (dset : Name) (dir : List Name) : List Name := sortNames (dir.filter fun f => accepts (indexRe dset) f)

end Verif.GraceText
