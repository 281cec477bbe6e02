import Verif.Dates.Model
import Verif.SpatialIO.Format

/-!
# Model of `grace_months_index.py` and of the date file written by `grace_date.py`

Text is a list of characters, a file a list of lines.
-/
namespace Verif.MonthsIndex
open Verif.Time Verif.Dates Verif.SLR Verif.SpatialIO

abbrev Text := List Char

/-! ## Numbers in text -/

/-- the sign of an integer in text -/
def signText (z : ℤ) : Text := if z < 0 then ['-'] else []

/-- an integer in decimal digits -/
def intText (z : ℤ) : Text := signText z ++ (natDigits z.natAbs).map dchar

/-- `'{0:0wd}'.format(z)`: zeros between the sign and the digits -/
def zeroText (w : ℕ) (z : ℤ) : Text :=
  signText z ++ List.replicate (w - (signText z).length - (natDigits z.natAbs).length) '0' ++ (natDigits z.natAbs).map dchar

/-! ## The date file -/

/-- the header of the date file (grace_date.py:264-265) -/
def datesHeader : Text := "Mid-date      Month   Start_Day    End_Day    Total_Days".toList

/-- One line of the date file (grace_date.py:274-277). `{x:8.0f}` and `{x:03.0f}` print the number rounded to an integer
(a tie goes to the even one). Simplified: a negative number that rounds to zero would be printed with its sign. -/
def datesLine (mon : ℤ) (f : FileDates) : Text :=
  fmtF 13 8 (tdec f) ++ ' ' :: zeroText 3 mon ++ ' ' :: pad 8 (intText f.startYr) ++ ' ' :: zeroText 3 (npRound f.startDay) ++
    ' ' :: pad 8 (intText f.endYr) ++ ' ' :: zeroText 3 (npRound f.endDay) ++ ' ' :: pad 8 (intText (npRound (totDays f)))

/-- The date file of the data files of an index (grace_date.py:259-283). -/
def datesFile (cnes : Bool) (fs : List FileDates) : List Text :=
  datesHeader :: ((months cnes fs).zip fs).map fun p => datesLine p.1 p.2

/-! ## Reading the date files -/

/-- The columns of the date file used by the index (grace_months_index.py:114-116). -/
structure Row where
  mon : ℤ
  styr : ℤ
  stday : ℤ
  endyr : ℤ
  endday : ℤ
deriving DecidableEq

/-- The ways the program can stop: a value that cannot be read, converted or unpacked, or an index that does not exist. -/
inductive Err where
  | value | index
deriving DecidableEq

/-- One line of the date file as read by `np.loadtxt` with seven columns: a number and six integers
(grace_months_index.py:114-116, 122-123). -/
def readRow (line : Text) : Option Row :=
  match split line with
  | [t, mon, styr, stday, endyr, endday, total] =>
    match pyFloat t, pyInt mon, pyInt styr, pyInt stday, pyInt endyr, pyInt endday, pyInt total with
    | some _, some m, some a, some b, some c, some d, some _ => some ⟨m, a, b, c, d⟩
    | _, _, _, _, _, _, _ => none
  | _ => none

/-- `np.loadtxt(file, skiprows=1, dtype=dtype)` (grace_months_index.py:122-123): lines without any word are skipped.
`none` is the `ValueError` of a line that is not seven numbers. Comments are not modelled. -/
def loadDates (file : List Text) : Option (List Row) :=
  ((file.drop 1).filter fun l => split l ≠ []).mapM readRow

/-! ## The index -/

/-- `PROC` (grace_months_index.py:98). -/
def centers : List Text := ["CSR".toList, "GFZ".toList, "GSFC".toList, "JPL".toList]

/-- `var_name` of a dataset, e.g. `CSR_RL06` (grace_months_index.py:120). -/
def keyOf (pr rl : Text) : Text := pr ++ '_' :: rl

/-- The date files on disk: the lines of `base_dir/pr/rl/GSM/{pr}_{rl}_DATES.txt` if the file exists. -/
abbrev Disk := Text → Text → Option (List Text)

/-- `var_info[var_name] = ...` (grace_months_index.py:122): an existing key keeps its place. -/
def put (d : List (Text × List Row)) (k : Text) (v : List Row) : List (Text × List Row) :=
  if k ∈ d.map Prod.fst then d.map fun p => if p.1 = k then (k, v) else p else d ++ [(k, v)]

/-- The body of the loop over releases and centers (grace_months_index.py:109-128): the state is `var_info` and `max_mon`.
`max` of an empty column raises a `ValueError`. -/
def readOne (disk : Disk) (s : List (Text × List Row) × ℤ) (q : Text × Text) : Except Err (List (Text × List Row) × ℤ) :=
  match disk q.1 q.2 with
  | none => .ok s
  | some file =>
    match loadDates file with
    | none => .error .value
    | some rows =>
      match (rows.map Row.mon).max? with
      | none => .error .value
      | some mx => .ok (put s.1 (keyOf q.1 q.2) rows, if s.2 < mx then mx else s.2)

/-- The loop over releases, then centers (grace_months_index.py:107-109). -/
def readAll (disk : Disk) (drel : List Text) : Except Err (List (Text × List Row) × ℤ) :=
  (drel.flatMap fun rl => centers.map fun pr => (pr, rl)).foldlM (readOne disk) ([], 0)

/-- The order of two names: by the characters from the left, a beginning of a name comes before the name. -/
def nameLe : Text → Text → Bool
  | [], _ => true
  | _ :: _, [] => false
  | a :: s, b :: t => if a = b then nameLe s t else decide (a.toNat < b.toNat)

/-- insert a dataset in the order of the names -/
def insertByName (p : Text × List Row) : List (Text × List Row) → List (Text × List Row)
  | [] => [p]
  | q :: r => if nameLe p.1 q.1 then p :: q :: r else q :: insertByName p r

/-- `sorted(var_info.keys())`, with the data (grace_months_index.py:131). -/
def sortByName (d : List (Text × List Row)) : List (Text × List Row) := d.foldr insertByName []

/-- `f'{s:^w}'`: blanks on both sides, the smaller half on the left. -/
def center (w : ℕ) (s : Text) : Text :=
  List.replicate ((w - s.length) / 2) ' ' ++ s ++ List.replicate (w - s.length - (w - s.length) / 2) ' '

/-- The header (grace_months_index.py:132-134). -/
def headerLine (names : List Text) : Text :=
  center 11 "MONTH".toList ++ [' ', ' '] ++ (names.map (center 21)).flatten

/-- `calendar.month_abbr` in the C locale. -/
def monthAbbr : List Text :=
  ["Jan", "Feb", "Mar", "Apr", "May", "Jun", "Jul", "Aug", "Sep", "Oct", "Nov", "Dec"].map String.toList

/-- The date range of a row (grace_months_index.py:161-162). -/
def rangeText (r : Row) : Text :=
  pad 4 (intText r.styr) ++ '_' :: zeroText 3 r.stday ++ "--".toList ++ pad 4 (intText r.endyr) ++ '_' :: zeroText 3 r.endday

/-- The text of a month without data (grace_months_index.py:165). -/
def missingText : Text := " ** missing **   ".toList

/-- The entry of a dataset for a month (grace_months_index.py:148-165). Two rows of the month cannot be unpacked
(`ValueError`); `np.loadtxt` returns a single row without the dimension of the rows, so that it cannot be indexed
(`IndexError`). -/
def entry (rows : List Row) (m : ℤ) : Except Err Text :=
  match rows.filter fun r => r.mon = m with
  | [] => .ok missingText
  | [r] => if rows.length = 1 then .error .index else .ok (rangeText r)
  | _ => .error .value

/-- `' '.join(...)`. -/
def joinBlank : List Text → Text
  | [] => []
  | [s] => s
  | s :: t => s ++ ' ' :: joinBlank t

/-- The line of a month (grace_months_index.py:138-172). -/
def monthLine (data : List (Text × List Row)) (m : ℤ) : Except Err Text :=
  match data.mapM fun d => entry d.2 m with
  | .error e => .error e
  | .ok cells =>
    let ym := graceToCalendar m
    .ok (zeroText 3 m ++ ' ' :: pad 3 (monthAbbr.getD (ym.2 - 1).toNat []) ++ pad 4 (intText ym.1) ++ ' ' ::
      joinBlank (cells.map (pad 20)))

/-- The loop over the months (grace_months_index.py:138-172): the lines printed, and the exception that ended it. -/
def monthLines (data : List (Text × List Row)) : List ℤ → List Text × Option Err
  | [] => ([], none)
  | m :: ms =>
    match monthLine data m with
    | .error e => ([], some e)
    | .ok l => (l :: (monthLines data ms).1, (monthLines data ms).2)

/-- `range(4, max_mon+1)` (grace_months_index.py:138). -/
def monthRange (mx : ℤ) : List ℤ := (List.range (mx + 1 - 4).toNat).map fun i : ℕ => 4 + (i : ℤ)

/-- `grace_months_index` (grace_months_index.py:74-177): the lines of `GRACE_months.txt`, which is opened (and emptied)
first, and the exception if there is one. The permissions are not modelled. -/
def monthsIndex (disk : Disk) (drel : List Text) : List Text × Option Err :=
  match readAll disk drel with
  | .error e => ([], some e)
  | .ok (info, mx) =>
    let data := sortByName info
    let r := monthLines data (monthRange mx)
    (headerLine (data.map Prod.fst) :: r.1, r.2)

/-! ## `run_grace_date.py` -/

/-- `DSET` (run_grace_date.py:82-96): the products of a center, the same for the three releases. -/
def products (p : Text) : List Text :=
  if p = "CSR".toList then ["GAC", "GAD", "GSM"].map String.toList
  else ["GAA", "GAB", "GAC", "GAD", "GSM"].map String.toList

/-- `VALID` (run_grace_date.py:84-97). -/
def validRel : List Text := ["RL04", "RL05", "RL06"].map String.toList

/-- The calls of `grace_date`, in order (run_grace_date.py:100-110): center, release, product. -/
def dateCalls (proc drel : List Text) : List (Text × Text × Text) :=
  proc.flatMap fun p => (drel.filter fun r => r ∈ validRel).flatMap fun r => (products p).map fun d => (p, r, d)

/-- `grace_date(base_dir, PROC=p, DREL=r, DSET=d, OUTPUT=True)` as a change of the disk: the date file of `GSM` is the one
read by the index, those of the other products go to other directories. `data` gives the dates of the files in the index
of a dataset. -/
def dateCall (data : Text → Text → Text → List FileDates) (disk : Disk) (c : Text × Text × Text) : Disk :=
  if c.2.2 = "GSM".toList then
    fun p r => if p = c.1 ∧ r = c.2.1 then some (datesFile false (data c.1 c.2.1 c.2.2)) else disk p r
  else disk

/-- `run_grace_date` (run_grace_date.py:74-114) for centers out of CSR, GFZ and JPL (the choices of the command line): the
disk afterwards and the index written. -/
def runGraceDate (data : Text → Text → Text → List FileDates) (disk : Disk) (proc drel : List Text) :
    Disk × (List Text × Option Err) :=
  let d := (dateCalls proc drel).foldl (dateCall data) disk
  (d, monthsIndex d drel)

end Verif.MonthsIndex
