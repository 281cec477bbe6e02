import Verif.Names.Regex
import Verif.Time.Model
import Mathlib.Data.Prod.Lex
import Mathlib.Data.List.Lex
import Mathlib.Data.Char

/-!
# Model of the names of GRACE/GRACE-FO files and of the index files

`utilities.compile_regex_pattern`, `time.parse_grace_file`, the versions in `time.reduce_by_date`,
`make_grace_index.py` and the index files of `gfz_isdc_grace_ftp.py` and `podaac_cumulus.py`.  Names are base names
(`pathlib.Path(granule).name` is not modelled), and `\d` is restricted to ASCII digits.
-/
namespace Verif.Names
open Verif.Time

abbrev Name := List Char

/-! ## `compile_regex_pattern` -/

/-- the argument `version`: the default `r'\d+'`, or a text of digits (an integer `n` becomes the text of `n`).  Other
regular expressions are not modelled -/
inductive Version where
  | any
  | num (ds : List Char)

/-- `str.zfill(2)` of a text without sign -/
def zfill2 (ds : List Char) : List Char := List.replicate (2 - ds.length) '0' ++ ds

/-- `version.zfill(2)` as an expression (utilities.py:2080); `r'\d+'` is long enough -/
def Version.re : Version → Re
  | .any => digits
  | .num ds => lit (zfill2 ds)

/-- `mission` as it is formatted into the pattern: `None` becomes the text `None` -/
def missionText : Option Name → Name
  | none => "None".toList
  | some m => m

/-- `[a-zA-Z0-9_\-]` -/
def wordChar (c : Char) : Bool := c.isAlphanum || c == '_' || c == '-'

/-- `([a-zA-Z0-9_\-]+)` -/
def wordPart : Re := .seq (.chr wordChar) (.many true wordChar)

/-- `(\.gz)?$` -/
def gzEnd : List Re := [opt (lit ".gz".toList)]

/-- `{0}-2_\d+-\d+_` -/
def dated (dset : Name) : List Re := [lit dset, lit "-2_".toList, digits, lit "-".toList, digits, lit "_".toList]

/-- the pattern for the monthly solutions of Release-06 (utilities.py:2081, 2087, 2103, 2114) -/
def rl06Pattern (dset mission center solution release : Name) (ver : Re) : Re :=
  .seq (cat (dated dset ++ [lit mission, lit "_".toList, lit center, lit "_".toList, lit solution, lit "_".toList,
    lit release, ver] ++ gzEnd)) .eos

/-- the pattern for the releases 4 and 5 (utilities.py:2074, 2091, 2096, 2109); `mid` follows the second number -/
def oldPattern (dset : Name) (mid : List Re) : Re :=
  .seq (cat (dated dset ++ [digits] ++ mid ++ gzEnd)) .eos

/-- `re.findall(r'(\d+)\.(\d+)', DREL).pop()` (utilities.py:2085) -/
def lriRelease (drel : Name) : Option (Name × Name) :=
  (findall (cat [.grp 1 digits, lit ".".toList, .grp 2 digits]) drel).getLast?.map fun c => (group c 1, group c 2)

/-- `DREL.endswith('LRI')` -/
def endsLRI (drel : Name) : Bool := "LRI".toList.isSuffixOf drel

/-- the pattern of `compile_regex_pattern` after the checks of the arguments (utilities.py:2069-2125).  `solution` is a
text without special characters.  `none`: an exception is raised -/
def patternOf (proc drel dset : Name) (mission : Option Name) (solution : Name) (version : Version) : Option Re :=
  if dset = "GSM".toList ∧ proc = "CSR".toList ∧ (drel = "RL04".toList ∨ drel = "RL05".toList) then
    some (oldPattern dset [lit ("_UTCSR_0060_000".toList ++ drel.drop 3)])
  else if dset = "GSM".toList ∧ proc = "CSR".toList ∧ drel = "RL06".toList then
    some (rl06Pattern dset (missionText mission) "UTCSR".toList solution "06".toList version.re)
  else if dset = "GSM".toList ∧ proc = "CSR".toList ∧ endsLRI drel = true then
    (lriRelease drel).map fun rv =>
      rl06Pattern dset (missionText mission) "UTCSR".toList "EA01".toList (zfill2 rv.1) (lit (zfill2 rv.2))
  else if dset = "GSM".toList ∧ proc = "GFZ".toList ∧ drel = "RL04".toList then
    some (oldPattern dset [lit "_EIGEN_G---_0004".toList])
  else if dset = "GSM".toList ∧ proc = "GFZ".toList ∧ drel = "RL05".toList then
    some (oldPattern dset [lit "_EIGEN_".toList, .alt (lit "G---".toList) (lit "GK2-".toList), lit "_005a".toList])
  else if dset = "GSM".toList ∧ proc = "GFZ".toList ∧ drel = "RL06".toList then
    some (rl06Pattern dset (missionText mission) "GFZOP".toList solution "06".toList version.re)
  else if proc = "JPL".toList ∧ (drel = "RL04".toList ∨ drel = "RL05".toList) then
    some (oldPattern dset [lit ("_JPLEM_0001_000".toList ++ drel.drop 3)])
  else if dset = "GSM".toList ∧ proc = "JPL".toList ∧ drel = "RL06".toList then
    some (rl06Pattern dset (missionText mission) "JPLEM".toList solution "06".toList version.re)
  else if proc = "CNES".toList then
    some (.seq (cat (dated dset ++ [digits, lit "_GRGS_".toList, wordPart, opt (lit ".txt".toList)] ++ gzEnd)) .eos)
  else
    match mission with
    | some m => some (.seq (cat ([lit dset, lit "-2_".toList, wordPart, lit "_".toList, lit m, lit "_".toList,
        wordPart] ++ gzEnd)) .eos)
    | none => some (.seq (cat ([lit dset, lit "-2_".toList, wordPart] ++ gzEnd)) .eos)

/-- `compile_regex_pattern` (utilities.py:2011-2125); an empty mission is not checked -/
def compilePattern (proc drel dset : Name) (mission : Option Name) (solution : Name) (version : Version) :
    Option Re :=
  if (∃ m, mission = some m ∧ m ≠ [] ∧ m ≠ "GRAC".toList ∧ m ≠ "GRFO".toList) then none
  else if ¬ (proc ∈ ["CNES", "CSR", "GFZ", "JPL"].map String.toList) then none
  else if ¬ (dset ∈ ["GAA", "GAB", "GAC", "GAD", "GSM"].map String.toList) then none
  else patternOf proc drel dset mission solution version

/-! ## `parse_grace_file` and the version of a file -/

/-- `(\d{4})(\d{3})-(\d{4})(\d{3})_` with the groups 2 to 5 -/
def datePart : List Re :=
  [.grp 2 (times 4 digit), .grp 3 (times 3 digit), lit "-".toList, .grp 4 (times 4 digit), .grp 5 (times 3 digit),
    lit "_".toList]

/-- `({centers})` (time.py:196) -/
def centersParse : Re :=
  oneOf (["UTCSR", "EIGEN", "GFZOP", "JPLEM", "JPLMSC", "GRGS", "COSTG", "GRGS"].map fun s => lit s.toList)

/-- the expression of `parse_grace_file` (time.py:197-200), the same as in `read_GRACE_harmonics.parse_file`
(read_GRACE_harmonics.py:310-314) -/
def parsePattern : Re :=
  .seq (.grp 1 (.many false anyChar)) (cat ([lit "-2_".toList] ++ datePart ++
    [.grp 6 (.many false anyChar), lit "_".toList, .grp 7 centersParse, lit "_".toList, .grp 8 (.many false anyChar),
      lit "_".toList, .grp 9 digits, .grp 10 (.many false anyChar),
      opt (.grp 11 (oneOf ([".gz", ".gfc", ".txt"].map fun s => lit s.toList))), .eos]))

/-- the date tuple `((SY,SD),(EY,ED))`; Python compares tuples of texts in lexicographic order -/
abbrev Span := (Name ×ₗ Name) ×ₗ (Name ×ₗ Name)

/-- a date tuple from its parts -/
def mkSpan (sy sd ey ed : Name) : Span := toLex (toLex (sy, sd), toLex (ey, ed))

/-- `parse_grace_file` (time.py:176-204).  `none`: `pop` from an empty list -/
def parseGraceFile (name : Name) : Option Span :=
  (findall parsePattern name).getLast?.map fun c => mkSpan (group c 2) (group c 3) (group c 4) (group c 5)

/-- the expression of `reduce_by_date` (time.py:299-302) -/
def versionPattern : Re :=
  .seq (.grp 1 (.many false anyChar)) (cat ([lit "-2_".toList] ++ datePart ++
    [.grp 6 (.many false anyChar), lit "_".toList,
      .grp 7 (oneOf (["UTCSR", "EIGEN", "GFZOP", "JPLEM", "JPLMSC", "GRGS", "COSTG"].map fun s => lit s.toList)),
      lit "_".toList, .grp 8 (.many false anyChar), lit "_".toList, .grp 9 (times 2 digit), .grp 10 (times 2 digit),
      .grp 11 (.many false anyChar), opt (.grp 12 (oneOf ([".gz", ".gfc"].map fun s => lit s.toList))), .eos]))

/-- `int` of a text of digits -/
def intOf (ds : Name) : ℕ := ds.foldl (fun a c => 10 * a + (c.toNat - 48)) 0

/-- `int(VER)` (time.py:316-319).  `none`: `pop` from an empty list -/
def versionOf (name : Name) : Option ℕ :=
  (findall versionPattern name).getLast?.map fun c => intOf (group c 10)

/-- `reduce_by_date` (time.py:279-325) on names.  `none`: one of the names has no dates, or one of those that share
their dates with another one has no version -/
def reduceNames (granules : List Name) : Option (List Name) :=
  if ∃ f ∈ granules, parseGraceFile f = none then none
  else if ∃ f ∈ granules, 2 ≤ (granules.map parseGraceFile).count (parseGraceFile f) ∧ versionOf f = none then none
  else some (reduceByDate (fun f => (parseGraceFile f).getD (mkSpan [] [] [] []))
    (fun f => (((versionOf f).getD 0 : ℕ) : ℤ)) granules)

/-! ## Index files -/

/-- the two missions, in the order of the loops -/
def missions : List Name := ["GRAC".toList, "GRFO".toList]

/-- files of the directory that fit the pattern for a mission; `none`: no such pattern -/
def filesFor (proc drel dset mission solution : Name) (version : Version) (dir : List Name) : Option (List Name) :=
  (compilePattern proc drel dset (some mission) solution version).map fun rx => dir.filter fun f => accepts rx f

/-- `sorted` on names (Python compares texts by code points) -/
def sortNames (l : List Name) : List Name := l.insertionSort (· ≤ ·)

/-- the lines of the index written by `make_grace_index.py:66-84` for one product: the files of both missions are
collected, reduced to one file for each date, and sorted.  `v1` and `v2` are the two versions of the command line,
`dir` the file names in the order of `iterdir`.  `none`: an exception before the index is opened -/
def makeGraceIndex (proc drel dset : Name) (v1 v2 : Version) (dir : List Name) : Option (List Name) := do
  let a ← filesFor proc drel dset "GRAC".toList "BA01".toList v1 dir
  let b ← filesFor proc drel dset "GRFO".toList "BA01".toList v2 dir
  let r ← reduceNames (a ++ b)
  pure (sortNames r)

/-- the lines of the index written by `gfz_isdc_grace_ftp.py:262-277` and `podaac_cumulus.py:260-293`: the files of each
mission are sorted and reduced on their own, then collected and sorted -/
def syncIndex (proc drel dset : Name) (dir : List Name) : Option (List Name) := do
  let a ← filesFor proc drel dset "GRAC".toList "BA01".toList .any dir
  let ra ← reduceNames (sortNames a)
  let b ← filesFor proc drel dset "GRFO".toList "BA01".toList .any dir
  let rb ← reduceNames (sortNames b)
  pure (sortNames (ra ++ rb))

end Verif.Names
