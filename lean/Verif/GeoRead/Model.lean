import Verif.Geocenter.Model
import Verif.GIA.Text
import Verif.SLR.Model

/-!
# Model of the geocenter file readers (`gravity_toolkit/geocenter.py:142-740`)

Files are lists of lines (characters); `none` is an exception.  Exact arithmetic: the single precision of the numbers in
dealiasing files (geocenter.py:183) is not modelled, nor non-ASCII digits, nor the search for the file name without case
dependence (geocenter.py:112-138).
-/
namespace Verif.GeoRead
open Verif.Time Verif.SLR Verif.GIA Verif.Geocenter

/-- one date of a geocenter object: coefficients are (C10, C11, S11), `none` for "not a number"; errors are
(eC10, eC11, eS11), `none` when the reader leaves them `None` -/
structure Entry where
  time : ℚ
  month : ℤ
  coef : Option (ℝ × ℝ × ℝ)
  err : Option (ℝ × ℝ × ℝ)

/-- the last statement of most readers: `adjust_months` on the months (geocenter.py:289, 432, 600) -/
def adjust (rs : List Entry) : List Entry :=
  (rs.zip (adjustMonths (rs.map Entry.month))).map fun p => { p.1 with month := p.2 }

/-! ## GravIS -/

/-- a data line (geocenter.py:259-276) -/
noncomputable def gravisLine (l : Line) : Option Entry := do
  let t ← col l 1
  let c10 ← col l 2
  let c11 ← col l 5
  let s11 ← col l 8
  let e10 ← col l 4
  let e11 ← col l 7
  let es11 ← col l 10
  some ⟨t, startMonth t, some (c10, c11, s11), some ((e10 : ℝ) * 1e-10, (e11 : ℝ) * 1e-10, (es11 : ℝ) * 1e-10)⟩

/-- `from_gravis` (geocenter.py:191-292) -/
noncomputable def fromGravis (HEADER : Bool) (ls : List Line) : Option (List Entry) := do
  let body ← skipHeader upperProduct HEADER ls
  let rs ← readLines (more 0) gravisLine body
  some (adjust rs)

/-! ## Dates as text -/

/-- the number of one or two digits at the beginning of the text, if it lies between `lo` and `hi`, and the rest: the
expressions of `strptime` for months, days, hours, minutes and seconds, all followed by something else than a digit -/
def field (lo hi : ℕ) (cs : List Char) : Option (ℕ × List Char) :=
  let ds := cs.takeWhile Char.isDigit
  if (ds.length = 1 ∨ ds.length = 2) ∧ lo ≤ digitsVal ds ∧ digitsVal ds ≤ hi then
    some (digitsVal ds, cs.dropWhile Char.isDigit)
  else none

/-- a literal character -/
def eat (c : Char) : List Char → Option (List Char)
  | d :: r => if d = c then some r else none
  | [] => none

/-- four digits -/
def year4 (cs : List Char) : Option (ℕ × List Char) :=
  let ds := cs.take 4
  if ds.length = 4 ∧ ds.all Char.isDigit then some (digitsVal ds, cs.drop 4) else none

/-- days in a month, which `strptime` checks through `datetime.date` -/
def monthDays (y m : ℕ) : ℕ :=
  if m = 2 then (if y % 4 = 0 ∧ (y % 100 ≠ 0 ∨ y % 400 = 0) then 29 else 28)
  else if m = 4 ∨ m = 6 ∨ m = 9 ∨ m = 11 then 30 else 31

/-- `time.strptime(text, '%Y-%m-%dT%H:%M:%S')` (geocenter.py:178): year and month -/
def isoDate (cs : List Char) : Option (ℕ × ℕ) := do
  let (y, r) ← year4 cs
  let r ← eat '-' r
  let (m, r) ← field 1 12 r
  let r ← eat '-' r
  let (d, r) ← field 1 31 r
  let r ← eat 'T' r
  let (_, r) ← field 0 23 r
  let r ← eat ':' r
  let (_, r) ← field 0 59 r
  let r ← eat ':' r
  let (_, r) ← field 0 61 r
  if r = [] ∧ 1 ≤ y ∧ d ≤ monthDays y m then some (y, m) else none

/-! ## Dealiasing -/

/-- a data line (geocenter.py:175-183): X, Y and Z; the dates have to be within the month -/
def aodLine (year month : ℤ) (l : Line) : Option (ℚ × ℚ × ℚ) :=
  match split l with
  | [d, x, y, z] => do
    let (yy, mm) ← isoDate d
    let x ← pyFloat x
    let y ← pyFloat y
    let z ← pyFloat z
    if (yy : ℤ) = year ∧ (mm : ℤ) = month then some (x, y, z) else none
  | _ => none

/-- a commented line (geocenter.py:168) -/
def comment (l : Line) : Bool := l.head? = some '#'

/-- `from_AOD1B` (geocenter.py:142-188) on the lines of the file: (C10, C11, S11) at each date.  The object is a new one
with the radius set by `__init__` -/
noncomputable def fromAOD1B (year month : ℤ) (ls : List Line) : Option (List (ℝ × ℝ × ℝ)) := do
  let xs ← (ls.filter fun l => !comment l).mapM (aodLine year month)
  let n := xs.length
  let ser (f : ℚ × ℚ × ℚ → ℚ) : Ser n := fun i => (f xs[i] : ℚ)
  let g : Geo n := { coef := noTriple n, err := noTriple n
                     cart := ⟨some (ser fun p => p.2.2), some (ser fun p => p.1), some (ser fun p => p.2.1)⟩
                     sig := noTriple n, radius := defaultRadius, time := fun _ => 0, month := fun _ => 0 }
  let h ← fromCartesian g 0
  match h.coef with
  | ⟨some c, some a, some b⟩ => some ((List.finRange n).map fun i => (c i, a i, b i))
  | _ => none

/-- `np.mean` of each component (geocenter.py:420-422): of nothing it is not a number -/
noncomputable def meanTriple (xs : List (ℝ × ℝ × ℝ)) : Option (ℝ × ℝ × ℝ) :=
  if xs = [] then none
  else some ((xs.map fun p => p.1).sum / xs.length, (xs.map fun p => p.2.1).sum / xs.length,
    (xs.map fun p => p.2.2).sum / xs.length)

/-- two digits `{:02d}` -/
def two (n : ℕ) : List Char := if n < 10 then '0' :: Nat.toDigits 10 n else Nat.toDigits 10 n

/-- name of the file that `from_AOD1B` reads (geocenter.py:159; years of four digits) -/
def aodReadName (release product : List Char) (year month : ℕ) : List Char :=
  "AOD1B_".toList ++ release ++ ' ' :: product ++ '_' :: Nat.toDigits 10 year ++ '_' :: two month ++ ".txt".toList

/-- name of the file that the program for these files writes (scripts/aod1b_geocenter.py:155) -/
def aodWriteName (release product : List Char) (year month : ℕ) : List Char :=
  "AOD1B_".toList ++ release ++ '_' :: product ++ '_' :: Nat.toDigits 10 year ++ '_' :: two month ++ ".txt".toList

/-! ## Satellite laser ranging -/

/-- the parent directory of the geocenter files: the directories `AOD1B/<release>/geocenter` with their files -/
structure Disk where
  release : List Char → Bool
  file : List Char → List Char → Option (List Line)

/-- `np.float64(line_contents[COLUMNS.index(name)])` (geocenter.py:379-400) -/
def slrCol (COLUMNS : List String) (l : Line) (name : String) : Option ℚ :=
  if name ∈ COLUMNS then (rxAll (dToE l))[COLUMNS.idxOf name]?.bind pyFloat else none

/-- `temp = geocenter(radius=self.radius)` with cartesian coordinates, `temp.from_cartesian()` (geocenter.py:381-389) -/
noncomputable def cartesian (radius : ℝ) (x y z : ℚ) : Option (ℝ × ℝ × ℝ) :=
  let g : Geo 1 := { coef := noTriple 1, err := noTriple 1
                     cart := ⟨some fun _ => (z : ℝ), some fun _ => (x : ℝ), some fun _ => (y : ℝ)⟩
                     sig := noTriple 1, radius := radius, time := fun _ => 0, month := fun _ => 0 }
  (fromCartesian g 0).bind fun h =>
    match h.coef with
    | ⟨some c, some a, some b⟩ => some (c 0, a 0, b 0)
    | _ => none

/-- month of a decimal year through the Julian date (geocenter.py:403-410, 586-595) -/
def julianMonth (t : ℚ) : Option (ℤ × ℤ × ℤ) := do
  let jd ← calendarToJulian t
  let d := convertJulian jd
  some (d.year, d.month, calendarToGrace d.year d.month)

/-- subtraction of the monthly mean, "not a number" included -/
noncomputable def subtract (a : ℝ × ℝ × ℝ) (b : Option (ℝ × ℝ × ℝ)) : Option (ℝ × ℝ × ℝ) :=
  b.map fun b => (a.1 - b.1, a.2.1 - b.2.1, a.2.2 - b.2.2)

/-- the monthly mean to be removed (geocenter.py:416-422): the file is `none` when it does not exist -/
noncomputable def aodMean (disk : Disk) (release : List Char) (year month : ℤ) : Option (Option (ℝ × ℝ × ℝ)) := do
  let ls ← disk.file release (aodReadName release "glo".toList year.toNat month.toNat)
  let xs ← fromAOD1B year month ls
  some (meanTriple xs)

/-- a data line (geocenter.py:375-422) -/
noncomputable def slrLine (radius : ℝ) (disk : Disk) (release : List Char) (AOD : Bool) (COLUMNS : List String)
    (l : Line) : Option Entry := do
  let t ← slrCol COLUMNS l "time"
  let x ← slrCol COLUMNS l "X"
  let y ← slrCol COLUMNS l "Y"
  let z ← slrCol COLUMNS l "Z"
  let c ← cartesian radius x y z
  let xs ← slrCol COLUMNS l "X_sigma"
  let ys ← slrCol COLUMNS l "Y_sigma"
  let zs ← slrCol COLUMNS l "Z_sigma"
  let e ← cartesian radius xs ys zs
  let (yy, mm, g) ← julianMonth t
  match AOD with
  | false => some ⟨t, g, some c, some e⟩
  | true => (aodMean disk release yy mm).map fun m => ⟨t, g, subtract c m, some e⟩

/-- `from_SLR` (geocenter.py:294-434): without a release the path of the dealiasing files cannot be made, and their
directory has to exist even when they are not used -/
noncomputable def fromSLR (radius : ℝ) (disk : Disk) (release : Option (List Char)) (AOD : Bool) (HEADER : ℕ)
    (COLUMNS : List String) (ls : List Line) : Option (List Entry) := do
  let release ← release
  if disk.release release = false ∨ ls.length < HEADER then none
  else ((ls.drop HEADER).mapM (slrLine radius disk release AOD COLUMNS)).map adjust

/-! ## Swenson -/

/-- `re.search(text, line)` for a text without special characters -/
def hasText (s : String) (l : Line) : Bool := l.tails.any fun t => s.toList.isPrefixOf t

/-- `np.float64(line_contents[k])` -/
def rxCol (l : Line) (k : ℕ) : Option ℚ := (rxAll l)[k]?.bind pyFloat

/-- the month of a line: the fifth number if there are five, otherwise from the date (geocenter.py:582-595) -/
def swensonMonth (l : Line) (t : ℚ) : Option ℤ :=
  if (rxAll l).length = 5 then (rxAll l)[4]?.bind pyInt else (julianMonth t).map fun p => p.2.2

/-- a data line (geocenter.py:571-595): date, month, coefficients in centimetres -/
noncomputable def swensonLine (l : Line) : Option (ℚ × ℤ × ℝ × ℝ × ℝ) := do
  let t ← rxCol l 0
  let c10 ← rxCol l 1
  let c11 ← rxCol l 2
  let s11 ← rxCol l 3
  let g ← swensonMonth l t
  some (t, g, 0.1 * (c10 : ℝ), 0.1 * (c11 : ℝ), 0.1 * (s11 : ℝ))

/-- `from_swenson` (geocenter.py:519-605); `from_cmwe` multiplies the coefficients, errors are `None` -/
noncomputable def fromSwenson (HEADER : Bool) (ls : List Line) : Option (List Entry) := do
  let body ← skipHeader (hasText "Time") HEADER ls
  let rs ← body.mapM swensonLine
  let n := rs.length
  let ser (f : ℝ × ℝ × ℝ → ℝ) : Ser n := fun i => f rs[i].2.2
  let g : Geo n := { coef := ⟨some (ser fun p => p.1), some (ser fun p => p.2.1), some (ser fun p => p.2.2)⟩
                     err := noTriple n, cart := noTriple n, sig := noTriple n, radius := defaultRadius
                     time := fun i => (rs[i].1 : ℝ), month := fun i => rs[i].2.1 }
  let h ← fromCmwe g 0
  match h.coef with
  | ⟨some c, some a, some b⟩ =>
    some (adjust ((List.finRange n).map fun i => ⟨rs[i].1, rs[i].2.1, some (c i, a i, b i), none⟩))
  | _ => none

/-! ## UCI -/

/-- one date of the files written by `calc_degree_one.py`: the attributes set from the variables.  The Julian date is
computed (it may raise) but is not among the attributes that `from_dict` copies (geocenter.py:818-820) -/
structure UEntry where
  time : ℚ
  month : ℤ
  data : List (String × ℚ)

/-- attributes that `from_dict` copies, besides date and month (geocenter.py:818-820) -/
def fields : List String :=
  ["C10", "C11", "S11", "eC10", "eC11", "eS11", "X", "Y", "Z", "X_sigma", "Y_sigma", "Z_sigma"]

/-- columns of the variables (geocenter.py:489-494): the only number in the comment, counted from one -/
def uciColumn (v : String × List Char) : Option (String × ℤ) :=
  match rxAll v.2 with
  | [w] => (pyInt w).map fun k => (v.1, k - 1)
  | _ => none

/-- Julian date (geocenter.py:503-513) -/
def uciJulian (t : ℚ) : Option ℚ :=
  let year : ℤ := ⌊t⌋
  (calendarDays year).map fun dpm =>
    367 * (year : ℚ) - ⌊7 * (year : ℚ) / 4⌋ - ⌊3 * (⌊((year : ℚ) - 8 / 7) / 100⌋ + 1 : ℚ) / 4⌋ + ⌊(275 : ℚ) / 9⌋
      + dpm.sum * (t - ⌊t⌋) + 1721028.5

/-- a data line (geocenter.py:497-516) -/
def uciLine (columns : List (String × ℤ)) (l : Line) : Option UEntry := do
  let t ← rxCol l 0
  let g ← (rxAll l).getLast?.bind pyInt
  let _ ← uciJulian t
  let data ← columns.mapM fun c => ((pyIdx (rxAll l) c.2).bind pyFloat).map fun x => (c.1, x)
  some ⟨t, g, data.filter fun d => d.1 ∈ fields⟩

/-- `from_UCI` (geocenter.py:436-517).  `yaml` is the parser of the header: names and comments of the variables, in
order, once each and none of them called `time` or `JD`; `none` when it fails.  The names of the date and the month have
to be among them -/
def fromUCI (yaml : List Line → Option (List (String × List Char))) (ls : List Line) : Option (List UEntry) := do
  let body ← skipHeader (hasText "# End of YAML header") true ls
  let vars ← yaml (ls.take (ls.length - body.length))
  if "mid-epoch_time" ∈ vars.map Prod.fst ∧ "month" ∈ vars.map Prod.fst then
    ((vars.filter fun v => v.1 ≠ "mid-epoch_time" ∧ v.1 ≠ "month").mapM uciColumn).bind fun columns =>
      body.mapM (uciLine columns)
  else none

/-! ## GRACE Tellus -/

/-- the alternatives of the expression of `strptime` for `%m`, in order: value and rest -/
def altMonth (cs : List Char) : List (ℕ × List Char) :=
  (match cs with
    | a :: b :: r =>
      if a.isDigit ∧ b.isDigit ∧ 1 ≤ digitsVal [a, b] ∧ digitsVal [a, b] ≤ 12 then [(digitsVal [a, b], r)] else []
    | _ => []) ++
  (match cs with
    | a :: r => if a.isDigit ∧ 1 ≤ digit a then [(digit a, r)] else []
    | _ => [])

/-- the alternatives for `%d` -/
def altDay (cs : List Char) : List (ℕ × List Char) :=
  (match cs with
    | a :: b :: r =>
      if a.isDigit ∧ b.isDigit ∧ 1 ≤ digitsVal [a, b] ∧ digitsVal [a, b] ≤ 31 then [(digitsVal [a, b], r)] else []
    | _ => []) ++
  (match cs with
    | a :: r => if a.isDigit ∧ 1 ≤ digit a then [(digit a, r)] else []
    | _ => [])

/-- `time.strptime(text, '%Y%m%d')` (geocenter.py:703-704): the first match has to use up the text -/
def ymd (cs : List Char) : Option (ℕ × ℕ × ℕ) := do
  let (y, r) ← year4 cs
  let (m, d, r) ← ((altMonth r).flatMap fun p => (altDay p.2).map fun q => (p.1, q.1, q.2)).head?
  if r = [] ∧ 1 ≤ y ∧ d ≤ monthDays y m then some (y, m, d) else none

/-- `time.strptime(text, '%Y%m')` (geocenter.py:717) -/
def ym (cs : List Char) : Option (ℕ × ℕ) := do
  let (y, r) ← year4 cs
  let (m, r) ← (altMonth r).head?
  if r = [] ∧ 1 ≤ y then some (y, m) else none

/-- date and month of a line (geocenter.py:701-728) -/
def tellusDate (JPL : Bool) (ws : List (List Char)) : Option (ℚ × ℤ) :=
  match JPL with
  | true => do
    let (y1, m1, d1) ← ws[7]?.bind fun w => ymd (w.take 8)
    let (y2, m2, d2) ← ws[8]?.bind fun w => ymd (w.take 8)
    let ts ← convertCalendarDecimal y1 m1 (day := some d1)
    let te ← convertCalendarDecimal y2 m2 (day := some d2)
    let t := (ts + te) / 2
    some (t, calendarToGrace (⌊t⌋ : ℤ) ⌊12 * (t - ⌊t⌋) + 1⌋)
  | false => do
    let (y, m) ← ws[0]?.bind fun w => ym (w.take 6)
    let t ← convertCalendarDecimal y m
    some (t, calendarToGrace (y : ℚ) m)

/-- `np.float64(line_contents[k])` as a real number -/
noncomputable def word (ws : List (List Char)) (k : ℕ) : Option ℝ := (ws[k]?.bind pyFloat).map fun x => (x : ℝ)

/-- a data line (geocenter.py:687-728): order 0 has one coefficient and its error, order 1 two each -/
noncomputable def tellusLine (JPL : Bool) (l : Line) : Option TLine := do
  let ws := rxAll l
  let m ← ws[2]?.bind pyInt
  match decide (m = 0), decide (m = 1) with
  | true, _ => do
    let c ← word ws 3
    let e ← word ws 5
    let (t, g) ← tellusDate JPL ws
    some ⟨m, c, 0, e, 0, t, g⟩
  | _, true => do
    let c ← word ws 3
    let s ← word ws 4
    let e ← word ws 5
    let es ← word ws 6
    let (t, g) ← tellusDate JPL ws
    some ⟨m, c, s, e, es, t, g⟩
  | _, _ => none

/-- `re.match(header_flag, line)` (geocenter.py:658-664): `end\sof\sheader` or `'\(a6,` -/
def tellusMark (JPL : Bool) (l : Line) : Bool :=
  if JPL then
    "end".toList.isPrefixOf l && ((l.drop 3).head?.any isSpace) && "of".toList.isPrefixOf (l.drop 4)
      && ((l.drop 6).head?.any isSpace) && "header".toList.isPrefixOf (l.drop 7)
  else "'(a6,".toList.isPrefixOf l

/-- one date of the Tellus series -/
structure TEntry where
  time : ℝ
  month : ℤ
  coef : ℝ × ℝ × ℝ
  err : ℝ × ℝ × ℝ

/-- `from_tellus` (geocenter.py:607-740); the arrays have one entry for two lines (geocenter.py:667) -/
noncomputable def fromTellusText (JPL HEADER : Bool) (ls : List Line) : Option (List TEntry) := do
  let body ← skipHeader (tellusMark JPL) HEADER ls
  let rows ← body.mapM (tellusLine JPL)
  let (n, s) ← (fromTellus rows).toOption
  let months := adjustMonths ((List.range n).map fun i : ℕ => s.month i)
  some ((List.range n).map fun i : ℕ =>
    ⟨s.time i, months.getD i 0, (s.c10 i, s.c11 i, s.s11 i), (s.ec10 i, s.ec11 i, s.es11 i)⟩)

end Verif.GeoRead
