import Verif.Names.Model
import Verif.GIA.Text
import Verif.SpatialIO.Format
import Verif.Harmonics.Model
import Verif.Geocenter.Model
import Mathlib.Data.List.Sort
import Mathlib.Data.List.Lex
import Mathlib.Data.Char

/-!
# Model of the programs reading AOD1B archives

`scripts/dealiasing_monthly_mean.py`, `scripts/aod1b_geocenter.py` and `scripts/aod1b_oblateness.py`.  A monthly archive
is a list of daily files; the text of a daily file is what is read after decompression, line by line.  Numbers are
exact.  Not modelled: log messages, directories, permissions, the text of the output files (for the monthly means see
C57, C83, C84; the coefficients, date and month that are written are modelled), non-ASCII characters.
-/
namespace Verif.Dealias
open Verif.Names Verif.Time Verif.SLR Verif.GIA Verif.SpatialIO Verif.Harmonics

abbrev Line := List Char

/-- what becomes of a computation: a value, an exception, or an endless loop -/
inductive Res (A : Type) where
  | ok (a : A)
  | raises
  | hangs

/-- a daily file in an archive: its name, its modification time and its lines -/
structure Member where
  name : Name
  mtime : ℤ
  text : List Line

/-- a monthly archive -/
structure Tar where
  name : Name
  mtime : ℚ
  members : List Member

/-! ## Text of a daily file -/

/-- `hx = re.compile(rf'^DATA.*SET.*{product}')` (dealiasing_monthly_mean.py:110, aod1b_geocenter.py:107,
aod1b_oblateness.py:108) -/
def headerRe (prod : Name) : Re :=
  cat [lit "DATA".toList, .many true anyChar, lit "SET".toList, .many true anyChar, lit prod]

/-- `bool(hx.search(line))`: the expression is anchored at the beginning -/
def isHeader (prod : Name) (line : Line) : Bool := accepts (headerRe prod) line

/-- `(\d+):\d+:\d+` -/
def clockRe : Re := cat [.grp 1 digits, lit ":".toList, digits, lit ":".toList, digits]

/-- `HH, = re.findall(r'(\d+):\d+:\d+', line)`, `np.int64(HH)` (dealiasing_monthly_mean.py:313-318): exactly one match is
needed -/
def hourOf (line : Line) : Option ℤ :=
  match findall clockRe line with
  | [c] => pyInt (group c 1)
  | _ => none

/-- one line of coefficients: degree, order, cosine and sine coefficient -/
structure Coef where
  l : ℕ
  m : ℕ
  c : ℚ
  s : ℚ

/-- `line_contents = rx.findall(line)` and the conversions (dealiasing_monthly_mean.py:323-329, aod1b_geocenter.py:222-232).
Negative degrees and orders (which numpy counts from the end) are not modelled.  The other two programs convert the
coefficients only if they need them -/
def dataRow (line : Line) : Option Coef :=
  match rxAll line with
  | a :: b :: c :: d :: _ =>
    match pyInt a, pyInt b, pyFloat c, pyFloat d with
    | some l, some m, some x, some y => if 0 ≤ l ∧ 0 ≤ m then some ⟨l.toNat, m.toNat, x, y⟩ else none
    | _, _, _, _ => none
  | _ => none

/-- the coefficients of one hour -/
structure Block where
  hour : ℤ
  rows : List Coef

/-- the lines are read until a header of the product is found; `none`: the end of the file, where `readline` returns an
empty text again and again -/
def nextHeader (prod : Name) : List Line → Option (Line × List Line)
  | [] => none
  | line :: rest => if isHeader prod line then some (line, rest) else nextHeader prod rest

/-- the `n` lines after a header (dealiasing_monthly_mean.py:319-329); `none`: an exception (the file ends, or a line is
not readable) -/
def readRows (n : ℕ) (lines : List Line) : Option (List Coef) :=
  if lines.length < n then none else (lines.take n).mapM dataRow

/-- `while (c < nt)` (dealiasing_monthly_mean.py:301-332, aod1b_geocenter.py:208-235): the blocks of the product -/
def readBlocks (prod : Name) (n : ℕ) : ℕ → List Line → Res (List Block)
  | 0, _ => .ok []
  | c + 1, lines =>
    match nextHeader prod lines with
    | none => .hangs
    | some (head, rest) =>
      match hourOf head, readRows n rest with
      | some h, some rows =>
        match readBlocks prod n c (rest.drop n) with
        | .ok bs => .ok (⟨h, rows⟩ :: bs)
        | .raises => .raises
        | .hangs => .hangs
      | _, _ => .raises

/-! ## Releases and products -/

/-- hours in a file and maximum degree (dealiasing_monthly_mean.py:118-135, aod1b_geocenter.py:117-133); `none`: ValueError -/
def releaseOf (drel : Name) : Option (ℕ × ℕ) :=
  if drel ∈ ["RL01", "RL02", "RL03", "RL04", "RL05"].map String.toList then some (4, 100)
  else if drel = "RL06".toList then some (8, 180)
  else none

/-- `aod1b_products` (dealiasing_monthly_mean.py:107) -/
def productOf (dset : Name) : Option Name :=
  if dset = "GAA".toList then some "atm".toList
  else if dset = "GAB".toList then some "ocn".toList
  else if dset = "GAC".toList then some "glo".toList
  else if dset = "GAD".toList then some "oba".toList
  else none

/-- `n_harm = (default_lmax**2 + 3*default_lmax)//2 + 1` (dealiasing_monthly_mean.py:139) -/
def nHarmOf (L : ℕ) : ℕ := (L ^ 2 + 3 * L) / 2 + 1

/-! ## Days of a month -/

/-- `calc_julian_day` (dealiasing_monthly_mean.py:93-97) -/
def calcJulianDay (year doy : ℤ) : ℚ :=
  367 * (year : ℚ) - ⌊7 * ((year : ℚ) + ⌊(10 : ℚ) / 12⌋) / 4⌋
    - ⌊3 * ((⌊((year : ℚ) + 8 / 7) / 100⌋ : ℚ) + 1) / 4⌋ + ⌊(275 : ℚ) / 9⌋ + doy + 1721028.5

/-- a line of the file of dates (dealiasing_monthly_mean.py:172-182) -/
structure DateRow where
  t : ℚ
  mon : ℕ
  styr : ℤ
  stday : ℤ
  endyr : ℤ
  endday : ℤ
  total : ℤ

/-- `julian_days_to_read` (dealiasing_monthly_mean.py:190-206).  If the month crosses years, `dpy` is the sum of an array
of `np.float64` numbers, and `range(start_day[t],dpy+1)` raises a TypeError (`none`) -/
def daysToRead (r : DateRow) : Option (List ℚ) :=
  if r.styr ≠ r.endyr then none
  else some ((List.range (r.endday + 1 - r.stday).toNat).map fun i : ℕ => calcJulianDay r.styr (r.stday + i))

/-- `'{0:0wd}'` of a natural number: digits with zeros on the left -/
def zpad (w n : ℕ) : Name := List.replicate (w - (natDigits n).length) '0' ++ (natDigits n).map dchar

/-- `'{0:d}-{1:02d}'` (dealiasing_monthly_mean.py:224) -/
def ymText (y m : ℤ) : Name := zpad 0 y.toNat ++ '-' :: zpad 2 m.toNat

/-- `'{0:0d}-{1:02d}-{2:02d}'` (dealiasing_monthly_mean.py:225) -/
def ymdText (y m d : ℤ) : Name := zpad 0 y.toNat ++ '-' :: (zpad 2 m.toNat ++ '-' :: zpad 2 d.toNat)

/-- `'|'.join(...)` inside a group; the order of the alternatives (a Python set) is not determined -/
def anyOf (ws : List Name) : Re := if ws = [] then .eps else oneOf (ws.map lit)

/-- `tx` (dealiasing_monthly_mean.py:227) -/
def tarRe (yms : List Name) : Re :=
  .seq (cat [lit "AOD1B_".toList, .grp 1 (anyOf yms), lit "_".toList, digits, .chr anyChar,
    .grp 2 (.alt (cat [lit "tar".toList, .chr anyChar, lit "gz".toList]) (lit "tgz".toList))]) .eos

/-- `fx` (dealiasing_monthly_mean.py:232) -/
def memberRe (ymds : List Name) : Re :=
  .seq (cat [lit "AOD1B_".toList, .grp 1 (anyOf ymds), lit "_X_".toList, digits, .chr anyChar, lit "asc".toList,
    opt (.grp 2 (.seq (.chr anyChar) (lit "gz".toList)))]) .eos

/-- the archives of the months, in the order of their names, and in them the files of the days
(dealiasing_monthly_mean.py:218-245) -/
def findMembers (days : List ℚ) (tars : List Tar) : List Member :=
  let yms := (days.map fun jd => ymText (convertJulian jd).year (convertJulian jd).month).dedup
  let ymds := (days.map fun jd => ymdText (convertJulian jd).year (convertJulian jd).month (convertJulian jd).day).dedup
  let sel := tars.filter fun t => accepts (tarRe yms) t.name
  (sel.insertionSort fun a b => a.name ≤ b.name).flatMap fun t => t.members.filter fun m => accepts (memberRe ymds) m.name

/-- `YY, MM, DD = re.findall(r'\d+', YMD)` of the first group of `fx.findall(member.name).pop()`
(dealiasing_monthly_mean.py:289-290) -/
def memberDate (days : List ℚ) (name : Name) : Option (ℤ × ℤ × ℤ) :=
  let ymds := (days.map fun jd => ymdText (convertJulian jd).year (convertJulian jd).month (convertJulian jd).day).dedup
  (findall (memberRe ymds) name).getLast?.bind fun c =>
    match findall (.grp 1 digits) (group c 1) with
    | [y, m, d] =>
      match pyInt (group y 1), pyInt (group m 1), pyInt (group d 1) with
      | some y, some m, some d => some (y, m, d)
      | _, _, _ => none
    | _ => none

/-! ## Mean of a month -/

/-- one field: the date of the file and the block -/
structure Column where
  y : ℤ
  m : ℤ
  d : ℤ
  block : Block

/-- the loop over the daily files (dealiasing_monthly_mean.py:278-334) -/
def readMembers (days : List ℚ) (prod : Name) (nt n : ℕ) : List Member → Res (List Column)
  | [] => .ok []
  | mem :: rest =>
    match memberDate days mem.name with
    | none => .raises
    | some (y, m, d) =>
      match readBlocks prod n nt mem.text with
      | .hangs => .hangs
      | .raises => .raises
      | .ok bs =>
        match readMembers days prod nt n rest with
        | .ok cs => .ok (bs.map (fun b => (⟨y, m, d, b⟩ : Column)) ++ cs)
        | .raises => .raises
        | .hangs => .hangs

/-- `convert_calendar_decimal(years, months, day=days, hour=hours)` (dealiasing_monthly_mean.py:337-338) -/
def Column.time (c : Column) : Option ℚ :=
  convertCalendarDecimal c.y c.m (day := some (c.d : ℚ)) (hour := some (c.block.hour : ℚ))

/-- the flattened object `YLMS` (dealiasing_monthly_mean.py:263-334): degrees and orders are those of the last field
read, the coefficients of all fields are kept.  `month` is not used afterwards -/
def flatOf (L n : ℕ) (cols : List Column) (times : List ℚ) : Flat ℚ :=
  let last : List Coef := ((cols.getLast?).map fun c => c.block.rows).getD []
  { lmax := L, mmax := L, nt := some cols.length
    rows := (List.range n).map fun k : ℕ =>
      { l := ((last[k]?).map Coef.l).getD 0
        m := ((last[k]?).map Coef.m).getD 0
        c := fun t => (((cols[t]?).bind fun c => c.block.rows[k]?).map Coef.c).getD 0
        s := fun t => (((cols[t]?).bind fun c => c.block.rows[k]?).map Coef.s).getD 0 }
    time := times, month := [] }

/-- what is written for a month -/
structure Out where
  field : Harm ℚ
  time : ℚ
  month : ℕ
  start : ℤ × ℤ × ℤ
  stop : ℤ × ℤ × ℤ

/-- calendar day of a Julian day -/
def dayOf (jd : ℚ) : ℤ × ℤ × ℤ := ((convertJulian jd).year, (convertJulian jd).month, (convertJulian jd).day)

/-- the mean of the fields (dealiasing_monthly_mean.py:336-362); `none`: an exception -/
def meanOf (days : List ℚ) (L0 n LMAX gm : ℕ) (cols : List Column) : Option Out :=
  match cols.mapM Column.time, expand (flatOf L0 n cols []), days.min?, days.max? with
  | some times, .ok h, some j0, some j1 =>
    some { field := (mean (truncate h (some LMAX)) false (List.range cols.length)).1
           time := npMean times, month := gm, start := dayOf j0, stop := dayOf j1 }
  | _, _, _, _ => none

/-- mean of a month from its daily files -/
def monthMean (days : List ℚ) (prod : Name) (nt L0 LMAX gm : ℕ) (mems : List Member) : Res Out :=
  match readMembers days prod nt (nHarmOf L0) mems with
  | .hangs => .hangs
  | .raises => .raises
  | .ok cols =>
    match meanOf days L0 (nHarmOf L0) LMAX gm cols with
    | some o => .ok o
    | none => .raises

/-! ## The program -/

/-- `DATAFORM` -/
inductive Form where
  | ascii | netCDF4 | HDF5 | SHM
deriving DecidableEq

/-- arguments of the program -/
structure Job where
  proc : Name
  drel : Name
  dset : Name
  lmax : Option ℕ
  form : Form
  clobber : Bool

/-- `LMAX = default_lmax if not LMAX else LMAX` (dealiasing_monthly_mean.py:137) -/
def Job.degree (j : Job) (L0 : ℕ) : ℕ :=
  match j.lmax with
  | none => L0
  | some L => if L = 0 then L0 else L

/-- center in the name of a spherical harmonic model file (dealiasing_monthly_mean.py:160-167) -/
def centerOf (proc drel : Name) : Name :=
  if proc = "CSR".toList then "UTCSR".toList
  else if proc = "JPL".toList then "JPLEM".toList
  else if drel = "RL06".toList then "GFZOP".toList else "EIGEN".toList

/-- `suffix` (dealiasing_monthly_mean.py:105) -/
def suffixOf : Form → Name
  | .ascii => "txt".toList
  | .netCDF4 => "nc".toList
  | .HDF5 => "H5".toList
  | .SHM => []

/-- name of the output file (dealiasing_monthly_mean.py:209-216), for years and days that are not negative -/
def outName (j : Job) (LMAX : ℕ) (r : DateRow) : Name :=
  if j.form = .SHM then
    j.dset ++ "-2_".toList ++ zpad 4 r.styr.toNat ++ zpad 3 r.stday.toNat ++ "-".toList ++ zpad 4 r.endyr.toNat ++
      zpad 3 r.endday.toNat ++ "_".toList ++ (if r.mon ≤ 186 then "GRAC".toList else "GRFO".toList) ++ "_".toList ++
      centerOf j.proc j.drel ++ "_BC01_".toList ++ j.drel.drop 2 ++ "00.gz".toList
  else
    j.proc ++ "_".toList ++ j.drel ++ "_".toList ++ j.dset ++ "_CLM_L".toList ++ zpad 0 LMAX ++ "_".toList ++
      zpad 3 r.mon ++ ".".toList ++ suffixOf j.form

/-- the output files with their modification times, and the lines of the output file of dates -/
structure Disk where
  outs : Name → Option (ℚ × Out)
  dates : List DateRow

/-- how a program ends -/
inductive End where
  | finished | raised | hung
deriving DecidableEq

/-- `input_mtime` (dealiasing_monthly_mean.py:234-248): one entry for each day, zero where no file was found -/
def inputTimes (days : List ℚ) (mems : List Member) : List ℤ :=
  mems.map Member.mtime ++ List.replicate (days.length - mems.length) 0

/-- `TEST` (dealiasing_monthly_mean.py:250-264): there is no output file, or some input is newer -/
def outdated (old : Option (ℚ × Out)) (days : List ℚ) (mems : List Member) : Bool :=
  match old with
  | none => true
  | some (t, _) => (inputTimes days mems).any fun i => decide (t < i)

/-- one pass of the loop over the months (dealiasing_monthly_mean.py:188-382) at the time `now` -/
def monthStep (j : Job) (prod : Name) (nt L0 : ℕ) (tars : List Tar) (now : ℚ) (st : Disk) (r : DateRow) : Disk × End :=
  match daysToRead r with
  | none => (st, .raised)
  | some days =>
    let mems := findMembers days tars
    let name := outName j (j.degree L0) r
    if days.length < mems.length then (st, .raised)
    else if mems.length = days.length then
      let st1 : Disk := { st with dates := st.dates ++ [r] }
      if outdated (st.outs name) days mems || j.clobber then
        match monthMean days prod nt L0 (j.degree L0) r.mon mems with
        | .ok o => ({ st1 with outs := Function.update st.outs name (some (now, o)) }, .finished)
        | .raises => (st1, .raised)
        | .hangs => (st1, .hung)
      else (st1, .finished)
    else (st, .finished)

/-- the loop over the months: an exception ends the program -/
def monthLoop (j : Job) (prod : Name) (nt L0 : ℕ) (tars : List Tar) (now : ℚ) : Disk → List DateRow → Disk × End
  | st, [] => (st, .finished)
  | st, r :: rs =>
    let x := monthStep j prod nt L0 tars now st r
    if x.2 = .finished then monthLoop j prod nt L0 tars now x.1 rs else x

/-- `dealiasing_monthly_mean` (dealiasing_monthly_mean.py:100-405) without the index file: the output file of dates is
written anew.  (With a single line of dates `np.loadtxt` returns no list, and the program raises; not modelled.) -/
def monthlyMeans (j : Job) (rows : List DateRow) (tars : List Tar) (now : ℚ) (st : Disk) : Disk × End :=
  match productOf j.dset, releaseOf j.drel with
  | some prod, some (nt, L0) => monthLoop j prod nt L0 tars now { st with dates := [] } rows
  | _, _ => (st, .raised)

/-! ## Geocenter and oblateness series -/

/-- `fx = re.compile(r'AOD1B_\d+-\d+-(\d+)_X_\d+.asc(.gz)?$')` (aod1b_geocenter.py:104) -/
def dayRe : Re :=
  .seq (cat [lit "AOD1B_".toList, digits, lit "-".toList, digits, lit "-".toList, .grp 1 digits, lit "_X_".toList, digits,
    .chr anyChar, lit "asc".toList, opt (.grp 2 (.seq (.chr anyChar) (lit "gz".toList)))]) .eos

/-- `tx = re.compile(r'AOD1B_(\d+)-(\d+)_\d+\.(tar\.gz|tgz)$')` (aod1b_geocenter.py:102) -/
def monthRe : Re :=
  .seq (cat [lit "AOD1B_".toList, .grp 1 digits, lit "-".toList, .grp 2 digits, lit "_".toList, digits, lit ".".toList,
    .grp 3 (.alt (lit "tar.gz".toList) (lit "tgz".toList))]) .eos

/-- `YY,MM,SFX = tx.findall(input_file.name).pop()` (aod1b_geocenter.py:152-153) -/
def tarDate (name : Name) : Option (ℤ × ℤ) :=
  (findall monthRe name).getLast?.bind fun c =>
    match pyInt (group c 1), pyInt (group c 2) with
    | some y, some m => some (y, m)
    | _, _ => none

/-- `DD,SFX = fx.findall(member.name).pop()` (aod1b_geocenter.py:194-195); a name that does not match is an IndexError -/
def memberDay (name : Name) : Option ℤ :=
  (findall dayRe name).getLast?.bind fun c => pyInt (group c 1)

/-- the value of the last row of degree `l` and order `m`, else the zero of the allocated array
(aod1b_geocenter.py:226-232) -/
def pick (rows : List Coef) (l m : ℕ) (f : Coef → ℚ) : ℚ :=
  rows.foldl (fun acc r => if r.l = l ∧ r.m = m then f r else acc) 0

/-- a line of the geocenter file: date, hour, and the coefficients `C11`, `S11`, `C10` from which `X`, `Y` and `Z` are
calculated (see `geocenterXYZ`) -/
structure GeoLine where
  y : ℤ
  m : ℤ
  d : ℤ
  h : ℤ
  c11 : ℚ
  s11 : ℚ
  c10 : ℚ
deriving DecidableEq

/-- `X`, `Y`, `Z` by `to_cartesian` with the radius of a new object (aod1b_geocenter.py:239, geocenter.py:924-947) -/
noncomputable def geocenterXYZ (radius : ℝ) (g : GeoLine) : ℝ × ℝ × ℝ :=
  ((g.c11 : ℝ) * radius * Real.sqrt 3 / (1 + 0), (g.s11 : ℝ) * radius * Real.sqrt 3 / (1 + 0),
    (g.c10 : ℝ) * radius * Real.sqrt 3 / (1 + 0))

/-- lines of a day in the geocenter file (aod1b_geocenter.py:200-242) -/
def geoDay (y m d : ℤ) (bs : List Block) : List GeoLine :=
  bs.map fun b => ⟨y, m, d, b.hour, pick b.rows 1 1 Coef.c, pick b.rows 1 1 Coef.s, pick b.rows 1 0 Coef.c⟩

/-- a line of the oblateness file -/
structure OblLine where
  y : ℤ
  m : ℤ
  d : ℤ
  h : ℤ
  c20 : ℚ
deriving DecidableEq

/-- lines of a day in the oblateness file: `for h in range(4)` (aod1b_oblateness.py:231-233) -/
def oblDay (y m d : ℤ) (bs : List Block) : List OblLine :=
  (List.range 4).filterMap fun h : ℕ => (bs[h]?).map fun b => ⟨y, m, d, b.hour, pick b.rows 2 0 Coef.c⟩

/-- the lines of the series of one archive: the daily files in the order of the archive (aod1b_geocenter.py:188-242,
aod1b_oblateness.py:187-233); `day` makes the lines of a day.  Lines already written when an exception occurs stay in
the file, they are not modelled -/
def seriesOf {A : Type} (day : ℤ → ℤ → ℤ → List Block → List A) (prod : Name) (nt n : ℕ) (y m : ℤ) :
    List Member → Res (List A)
  | [] => .ok []
  | mem :: rest =>
    match memberDay mem.name with
    | none => .raises
    | some d =>
      match readBlocks prod n nt mem.text with
      | .hangs => .hangs
      | .raises => .raises
      | .ok bs =>
        match seriesOf day prod nt n y m rest with
        | .ok ls => .ok (day y m d bs ++ ls)
        | .raises => .raises
        | .hangs => .hangs

/-- the program for one archive (aod1b_geocenter.py:149-248): nothing if the output is newer than the archive, unless it
is to be overwritten; `none`: left alone -/
def seriesFile {A : Type} (day : ℤ → ℤ → ℤ → List Block → List A) (drel prod : Name) (clobber : Bool) (old : Option ℚ)
    (tar : Tar) : Option (Res (List A)) :=
  let test : Bool := match old with
    | none => true
    | some t => decide (t < tar.mtime)
  match releaseOf drel, tarDate tar.name with
  | some (nt, L0), some (y, m) =>
    if test || clobber then some (seriesOf day prod nt (nHarmOf L0) y m tar.members) else none
  | _, _ => some .raises

/-- `aod1b_geocenter` for one archive -/
def geocenterFile (drel prod : Name) (clobber : Bool) (old : Option ℚ) (tar : Tar) : Option (Res (List GeoLine)) :=
  seriesFile geoDay drel prod clobber old tar

/-- `aod1b_oblateness` for one archive -/
def oblatenessFile (drel prod : Name) (clobber : Bool) (old : Option ℚ) (tar : Tar) : Option (Res (List OblLine)) :=
  seriesFile oblDay drel prod clobber old tar

end Verif.Dealias
