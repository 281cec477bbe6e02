import Verif.SLR.Text
import Verif.Weekly.Model
import Mathlib.Data.List.Sort
import Mathlib.Analysis.Real.Sqrt

/-!
# Model of the satellite laser ranging readers: `gravity_toolkit/SLR/{C20,C30,C40,C50,CS2}.py` and
`gravity_toolkit/read_SLR_harmonics.py`

A file is its name and its lines; `table` is what `np.loadtxt` makes of it (`none` when it raises).
Exact arithmetic: dates and coefficients are rationals, errors are real because of the square roots of
read_SLR_harmonics.py:240-243.  Not modelled: the check that the file exists, single precision of the
`'f'` columns read by `np.loadtxt`, non-ASCII digits and letters.  `none` is an exception throughout.
-/
namespace Verif.SLR
open Verif.Time

/-- text line -/
abbrev Line := List Char

/-- a file -/
structure File where
  name : List Char
  lines : List Line
  table : Option (List (List ℚ))

/-! ## File names -/

/-- elements of the patterns: a character (`re.I`), `\d`, `\d+` -/
inductive Atom where
  | lit (c : Char)
  | digit
  | digits

/-- match at the beginning; in all patterns a `\d+` is followed by a character that is not a digit, or by
nothing, so that taking all digits loses no match -/
def matchAt : List Atom → List Char → Bool
  | [], _ => true
  | .lit c :: p, d :: cs => c.toLower == d.toLower && matchAt p cs
  | .digit :: p, d :: cs => d.isDigit && matchAt p cs
  | .digits :: p, d :: cs => d.isDigit && matchAt p (cs.dropWhile Char.isDigit)
  | _ :: _, [] => false

/-- `re.search` -/
def search (p : List Atom) (cs : List Char) : Bool := cs.tails.any (matchAt p)

/-- literal pattern -/
def lits (s : String) : List Atom := s.toList.map .lit

/-- the kinds of files the readers know -/
inductive Kind where
  | csr | gfz | gravis | tn | podaac | lares | weekly | monthly | gsfc | gsfc7 | unknown
deriving DecidableEq, Repr

/-- `C20` (SLR/C20.py:139, 168, 218, 266, 325) -/
def kindC20 (n : List Char) : Kind :=
  if search (lits "C20_RL" ++ [.digits]) n then .csr
  else if search (lits "GFZ_RL" ++ [.digits] ++ lits "_C20_SLR") n then .gfz
  else if search (lits "GRAVIS-2B_GFZOP") n then .gravis
  else if search (lits "TN-11") n || search (lits "TN-14") n then .tn
  else .podaac

/-- `C30` (SLR/C30.py:119, 181, 191, 240) -/
def kindC30 (n : List Char) : Kind :=
  if search (lits "TN-14") n then .tn
  else if search (lits "C30_LARES") n then .lares
  else if search (lits "GRAVIS-2B_GFZOP") n then .gravis
  else .monthly

/-- `C40` (SLR/C40.py:92, 100, 109) -/
def kindC40 (n : List Char) : Kind :=
  if search (lits "gsfc_slr_5x5c61s61") n then .weekly
  else if search (lits "C40_LARES") n then .lares
  else .monthly

/-- `C50` (SLR/C50.py:98, 162, 170, 179) -/
def kindC50 (n : List Char) : Kind :=
  if search (lits "GSFC_SLR_C20_C30_C50") n then .gsfc
  else if search (lits "gsfc_slr_5x5c61s61") n then .weekly
  else if search (lits "C50_LARES") n then .lares
  else .monthly

/-- `CS2` (SLR/CS2.py:129, 159, 184, 211) -/
def kindCS2 (n : List Char) : Kind :=
  if search (lits "GSFC_C2" ++ [.digit] ++ lits "_S2" ++ [.digit]) n then .gsfc7
  else if search (lits "gsfc_slr_5x5c61s61") n then .weekly
  else if search (lits "C2" ++ [.digit] ++ lits "_S2" ++ [.digit] ++ lits "_RL" ++ [.digit, .digit]) n then .csr
  else if search (lits "GRAVIS-2B_GFZOP") n then .gravis
  else .unknown

/-! ## Line by line readers -/

/-- one entry of the output arrays -/
structure Rec where
  time : ℚ
  month : ℤ
  data : ℚ
  error : ℝ

/-- the header loop (SLR/C20.py:183-189 and the like): the lines after the first that satisfies `last`; running
off the end of the file is an `IndexError` -/
def skipHeader (last : Line → Bool) (HEADER : Bool) (ls : List Line) : Option (List Line) :=
  if HEADER then
    match ls.dropWhile fun l => !last l with
    | [] => none
    | _ :: r => some r
  else some ls

/-- `re.match(r'PRODUCT:+', line)` -/
def upperProduct (l : Line) : Bool := "PRODUCT:".toList.isPrefixOf l

/-- `re.match(r'Product:+', line)` -/
def titleProduct (l : Line) : Bool := "Product:".toList.isPrefixOf l

/-- `re.match(r'PRODUCT:+', line, re.IGNORECASE)` -/
def anyProduct (l : Line) : Bool := matchAt (lits "PRODUCT:") l

/-- `np.float64(line_contents[k])` -/
def col (l : Line) (k : ℕ) : Option ℚ := (findNumbers l)[k]?.bind pyFloat

/-- date from a Modified Julian Day (SLR/C20.py:307-314, SLR/C30.py:156-164): minutes and seconds are dropped -/
def mjdTime (MJD : ℚ) : Option ℚ :=
  let d := convertJulian (MJD + 2400000.5)
  convertCalendarDecimal d.year d.month (day := some d.day) (hour := some d.hour)

/-- `calendar_to_grace(time, around=np.round)` (SLR/C20.py:317-318) -/
def startMonth (t : ℚ) : ℤ := calendarToGrace t (around := npRound)

/-- a line with its date as decimal year in the second column (SLR/C20.py:206-213, SLR/C30.py:222-228) -/
noncomputable def yearLine (dcol ecol : ℕ) (l : Line) : Option Rec := do
  let t ← col l 1
  let x ← col l dcol
  let e ← col l ecol
  some ⟨t, startMonth t, x, (e : ℝ) * 1e-10⟩

/-- a line with its date as Modified Julian Day in the first column (SLR/C20.py:305-318, SLR/C30.py:155-171,
SLR/C50.py:134-150) -/
noncomputable def mjdLine (dcol ecol : ℕ) (l : Line) : Option Rec := do
  let m ← col l 0
  let t ← mjdTime m
  let x ← col l dcol
  let e ← col l ecol
  some ⟨t, startMonth t, x, (e : ℝ) * 1e-10⟩

/-- the loop over the lines: `keep` guards the body.  The arrays have as many entries as there are lines, so the
counter never runs out of them, and are truncated at the end (SLR/C20.py:200-221) -/
def readLines {A : Type} (keep : Line → Bool) (rd : Line → Option A) (ls : List Line) : Option (List A) :=
  (ls.filter keep).mapM rd

/-- at least `n + 1` numbers on the line (`count > n`) -/
def more (n : ℕ) (l : Line) : Bool := decide (n < (findNumbers l).length)

/-- the last statement of the readers: `adjust_months` on the months -/
def finish (rs : List Rec) : List Rec :=
  (rs.zip (adjustMonths (rs.map Rec.month))).map fun p => { p.1 with month := p.2 }

/-- `C20` of the CSR table (SLR/C20.py:139-167): columns time, C20, delta, sigma, AOD -/
noncomputable def c20Csr (AOD : Bool) (rows : List (List ℚ)) : List Rec :=
  rows.map fun r =>
    let t := r.getD 0 0
    ⟨t, calendarToGrace t, r.getD 1 0 - (if AOD then r.getD 4 0 * 1e-10 else 0), ((r.getD 3 0 : ℚ) : ℝ) * 1e-10⟩

/-- lines with `G*` or `Gm` (SLR/C20.py:205) -/
def gFlag (l : Line) : Bool := l.tails.any fun t => "G*".toList.isPrefixOf t || "Gm".toList.isPrefixOf t

/-- lines with an asterisk (SLR/C20.py:381) -/
def starFlag (l : Line) : Bool := l.contains '*'

/-- distinct values in increasing order: `np.unique` -/
def unique (ms : List ℤ) : List ℤ := ms.dedup.insertionSort (· ≤ ·)

/-- one month of the PO.DAAC file (SLR/C20.py:406-422): its only line, or the flagged one of two.  Three or more
lines leave the zeros of the arrays; not exactly one flagged line among two is a `ValueError` -/
def pick (rows : List (Rec × Bool)) (g : ℤ) : Option Rec :=
  match rows.filter fun r => decide (r.1.month = g) with
  | [r] => some r.1
  | [a, b] =>
    match [a, b].filter fun r => r.2 with
    | [r] => some r.1
    | _ => none
  | _ => some ⟨0, g, 0, 0⟩

/-- the PO.DAAC file (SLR/C20.py:325-422) -/
noncomputable def c20Podaac (HEADER : Bool) (ls : List Line) : Option (List Rec) := do
  let body ← skipHeader upperProduct HEADER ls
  let rows ← readLines (more 0) (fun l => (mjdLine 2 4 l).map fun r => (r, starFlag l)) body
  (unique (rows.map fun r => r.1.month)).mapM (pick rows)

/-- `C20(SLR_file, AOD, HEADER)` (SLR/C20.py:108-448) -/
noncomputable def c20 (f : File) (AOD HEADER : Bool) : Option (List Rec) :=
  (match kindC20 f.name with
    | .csr => f.table.map (c20Csr AOD)
    | .gfz => (skipHeader upperProduct HEADER f.lines).bind (readLines gFlag (yearLine 2 4))
    | .gravis => (skipHeader upperProduct HEADER f.lines).bind (readLines (more 0) (yearLine 2 4))
    | .tn => (skipHeader anyProduct HEADER f.lines).bind (readLines (more 0) (mjdLine 2 4))
    | _ => c20Podaac HEADER f.lines).map finish

/-- LARES tables (SLR/C30.py:181-190): time and anomaly.  A table of fewer than two rows is one-dimensional and
cannot be indexed by two indices -/
def lares (mean : ℚ) (rows : List (List ℚ)) : Option (List Rec) :=
  if rows.length < 2 then none
  else some (rows.map fun r => ⟨r.getD 0 0, calendarToGrace (r.getD 0 0), 1e-10 * r.getD 1 0 + mean, 0⟩)

/-! ## Harmonics to degree 5 with (6,1) -/

/-- `n_harm` (read_SLR_harmonics.py:136-138, 280-282) -/
def nHarm : ℕ := (6 ^ 2 + 3 * 6 - 2 ^ 2 - 2) / 2 - 5

/-- an index into an axis of length 7 -/
def idx7 (i : ℤ) : Option ℕ :=
  if 0 ≤ i ∧ i < 7 then some i.toNat else if -7 ≤ i ∧ i < 0 then some (i + 7).toNat else none

/-- cosine, sine and their errors for degree and order -/
abbrev Tab := ℕ → ℕ → ℚ × ℚ × ℚ × ℚ

/-- assignment to the entry of degree `l` and order `m` -/
def put (t : Tab) (l m : ℕ) (v : ℚ × ℚ × ℚ × ℚ) : Tab := fun a b => if a = l ∧ b = m then v else t a b

/-- `np.float64(text.replace('D','E'))` (read_SLR_harmonics.py:176-179) -/
def floatD (w : List Char) : Option ℚ := pyFloat (w.map fun c => if c = 'D' then 'E' else c)

/-- a line of coefficients: degree, order, and the values of four columns, read by `num` -/
def coefLine (num : List Char → Option ℚ) (ec es : Option ℕ) (t : Tab) (l : Line) : Option Tab := do
  let w := split l
  let l1 ← w[0]?.bind pyInt
  let m1 ← w[1]?.bind pyInt
  let c ← w[2]?.bind num
  let s ← w[3]?.bind num
  let e1 ← match ec with
    | some k => w[k]?.bind num
    | none => some 0
  let e2 ← match es with
    | some k => w[k]?.bind num
    | none => some 0
  let a ← idx7 l1
  let b ← idx7 m1
  some (put t a b (c, s, e1, e2))

/-- `n_harm` lines of coefficients; too few lines are an `IndexError` -/
def block (num : List Char → Option ℚ) (ec es : Option ℕ) (ls : List Line) : Option Tab :=
  if ls.length < nHarm then none else (ls.take nHarm).foldlM (coefLine num ec es) fun _ _ => 0

/-- `re.match(r'end\sof\sheader', line)` -/
def endHeader (l : Line) : Bool :=
  match l with
  | 'e' :: 'n' :: 'd' :: a :: 'o' :: 'f' :: b :: r => isSpace a && isSpace b && "header".toList.isPrefixOf r
  | _ => false

/-- `re.match(80*r'=', line)` -/
def rule (l : Line) : Bool := (List.replicate 80 '=').isPrefixOf l

/-- position after the last ruled line of the header (read_SLR_harmonics.py:141-158); `none`: not found -/
def meanStart (header : List Line) : Option ℕ :=
  ((List.range header.length).filter fun i => rule (header.getD i [])).getLast?.map (· + 1)

/-- one date of the output -/
structure Month where
  MJD : ℚ
  time : ℚ
  c : ℕ → ℕ → ℚ
  s : ℕ → ℕ → ℚ
  ec : ℕ → ℕ → ℝ
  es : ℕ → ℕ → ℝ

/-- mean of `line_contents[5:7]` (read_SLR_harmonics.py:212); nothing there gives NaN, here `none` -/
def meanMJD (w : List (List Char)) : Option ℚ := do
  let v ← ((w.drop 5).take 2).mapM pyFloat
  if v = [] then none else some (v.sum / v.length)

/-- the date line and the coefficients of one date (read_SLR_harmonics.py:206-243) -/
noncomputable def csrMonth (SCALE : ℚ) (mean : Tab) (d : ℕ) (ls : List Line) : Option Month := do
  let w ← ls[0]?.map split
  let arc ← w[0]?.bind pyInt
  let mjd ← meanMJD w
  let yy ← w[3]?.bind pyInt
  let mm ← w[4]?.bind pyInt
  let time ← convertCalendarDecimal yy mm
  let t ← block (fun x => (pyFloat x).map (· * SCALE)) (some 6) (some 7) ls.tail
  let out : Month :=
    { MJD := mjd, time := time
      c := fun l m => (t l m).1 + (mean l m).1
      s := fun l m => (t l m).2.1 + (mean l m).2.1
      ec := fun l m => Real.sqrt (((t l m).2.2.1 ^ 2 + (mean l m).2.2.1 ^ 2 : ℚ))
      es := fun l m => Real.sqrt (((t l m).2.2.2 ^ 2 + (mean l m).2.2.2 ^ 2 : ℚ)) }
  if arc = d + 1 then some out else none

/-- `n_dates` consecutive blocks of `n_harm + 1` lines -/
def blocks (ls : List Line) : List (List Line) :=
  (List.range (ls.length / (nHarm + 1))).map fun d => (ls.drop (d * (nHarm + 1))).take (nHarm + 1)

/-- `read_CSR_monthly_6x1` (read_SLR_harmonics.py:96-246).  Without a header there is no mean field and the
function raises (read_SLR_harmonics.py:156-158) -/
noncomputable def readMonthly (SCALE : ℚ) (HEADER : Bool) (ls : List Line) : Option (List Month) := do
  let body ← skipHeader endHeader HEADER ls
  let i ← meanStart (ls.take (ls.length - body.length))
  let mean ← block floatD (some 4) (some 5) (ls.drop i)
  ((blocks body).zipIdx).mapM fun b => csrMonth SCALE mean b.2 b.1

/-- one week (read_SLR_harmonics.py:308-329) -/
def gsfcWeek (SCALE : ℚ) (ls : List Line) : Option Month := do
  let w ← ls[0]?.map split
  let mjd ← w[0]?.bind pyFloat
  let time ← w[1]?.bind pyFloat
  let t ← block (fun x => (pyFloat x).map (· * SCALE)) none none ls.tail
  some ⟨mjd, time, fun l m => (t l m).1, fun l m => (t l m).2.1, fun _ _ => 0, fun _ _ => 0⟩

/-- `re.search(r'Product:', line)` -/
def hasProduct (l : Line) : Bool := l.tails.any fun t => "Product:".toList.isPrefixOf t

/-- `read_GSFC_weekly_6x1` (read_SLR_harmonics.py:249-332) -/
def readWeekly (SCALE : ℚ) (HEADER : Bool) (ls : List Line) : Option (List Month) := do
  let body ← skipHeader hasProduct HEADER ls
  (blocks body).mapM (gsfcWeek SCALE)

/-- `read_SLR_harmonics(SLR_file, HEADER=True)` (read_SLR_harmonics.py:78-94) with the default scales -/
noncomputable def readHarmonics (f : File) : Option (List Month) :=
  if search (lits "gsfc_slr_5x5c61s61") f.name then readWeekly 1 true f.lines
  else if search (lits "CSR_Monthly_5x5_Gravity_Harmonics") f.name then readMonthly 1e-10 true f.lines
  else none

/-- the coefficient (l,0) of the CSR file with its month from the Modified Julian Day (SLR/C30.py:240-251,
SLR/C40.py:109-120, SLR/C50.py:179-190).  The weekly reader has no errors: `Ylms['error']` is a `KeyError` -/
noncomputable def monthlyZonal (f : File) (l : ℕ) : Option (List Rec) :=
  if search (lits "gsfc_slr_5x5c61s61") f.name then none
  else (readHarmonics f).map fun ms => ms.map fun m =>
    let d := convertJulian (m.MJD + 2400000.5)
    ⟨m.time, calendarToGrace d.year d.month, m.c l 0, m.ec l 0⟩

/-- averages of the weekly file (SLR/C40.py:92-99, SLR/C50.py:162-169): no errors; `intDates`: the dates asked for
are integers -/
noncomputable def weeklyZonal (argsort : List ℚ → List ℕ) (f : File) (l : ℕ) (DATE : List ℚ) (intDates : Bool) :
    Option (List Rec) := do
  let ms ← readHarmonics f
  let o ← Weekly.convertWeekly argsort (ms.map Month.time) (ms.map fun m => m.c l 0) DATE intDates 28
  some (((o.time.zip o.month).zip o.data).map fun p => ⟨p.1.1, p.1.2, p.2, 0⟩)

/-- the GSFC readers raise when no line has the coefficient (SLR/C30.py:174-177, SLR/C50.py:153-155) -/
def nonEmpty (rs : List Rec) : Option (List Rec) := if rs = [] then none else some rs

/-- `C30(SLR_file, C30_MEAN, HEADER)` (SLR/C30.py:87-269) -/
noncomputable def c30 (f : File) (mean : ℚ) (HEADER : Bool) : Option (List Rec) :=
  (match kindC30 f.name with
    | .tn => ((skipHeader titleProduct HEADER f.lines).bind (readLines (more 7) (mjdLine 5 7))).bind nonEmpty
    | .lares => f.table.bind (lares mean)
    | .gravis => (skipHeader upperProduct HEADER f.lines).bind (readLines (more 0) (yearLine 5 7))
    | _ => monthlyZonal f 3).map finish

/-- `C40(SLR_file, C40_MEAN, DATE)` (SLR/C40.py:57-131) -/
noncomputable def c40 (argsort : List ℚ → List ℕ) (f : File) (mean : ℚ) (DATE : List ℚ) (intDates : Bool) : Option (List Rec) :=
  (match kindC40 f.name with
    | .weekly => weeklyZonal argsort f 4 DATE intDates
    | .lares => f.table.bind (lares mean)
    | _ => monthlyZonal f 4).map finish

/-- `C50(SLR_file, C50_MEAN, DATE, HEADER)` (SLR/C50.py:65-203) -/
noncomputable def c50 (argsort : List ℚ → List ℕ) (f : File) (mean : ℚ) (DATE : List ℚ) (intDates HEADER : Bool) :
    Option (List Rec) :=
  (match kindC50 f.name with
    | .gsfc => ((skipHeader titleProduct HEADER f.lines).bind (readLines (more 7) (mjdLine 10 12))).bind nonEmpty
    | .weekly => weeklyZonal argsort f 5 DATE intDates
    | .lares => f.table.bind (lares mean)
    | _ => monthlyZonal f 5).map finish

/-- one entry of the output of `CS2` -/
structure Rec2 where
  time : ℚ
  month : ℤ
  C : ℚ
  S : ℚ
  eC : ℚ
  eS : ℚ

/-- `adjust_months` at the end (SLR/CS2.py:281) -/
def finish2 (rs : List Rec2) : List Rec2 :=
  (rs.zip (adjustMonths (rs.map Rec2.month))).map fun p => { p.1 with month := p.2 }

/-- 28-day averages of 7-day solutions (SLR/CS2.py:142-158, 163-183): the code of `convert_weekly` for two
series, without `adjust_months` -/
def average2 (argsort : List ℚ → List ℕ) (t c s DATE : List ℚ) (intDates : Bool) : Option (List Rec2) :=
  DATE.mapM fun D => do
    let a ← Weekly.average argsort t c 28 D
    let b ← Weekly.average argsort t s 28 D
    let x := Weekly.store intDates a.1
    some ⟨x, calendarToGrace x, a.2, b.2, 0, 0⟩

/-- a line of the GravIS file (SLR/CS2.py:257-270) -/
def gravis2 (l : Line) : Option Rec2 := do
  let t ← col l 1
  let c ← col l 8
  let ec ← col l 10
  let s ← col l 11
  let es ← col l 13
  some ⟨t, startMonth t, c, s, ec * 1e-10, es * 1e-10⟩

/-- a row of the CSR table (SLR/CS2.py:203-210): time, two coefficients, their errors, the two means of the
de-aliasing model -/
def csr2 (r : List ℚ) : Rec2 :=
  ⟨r.getD 0 0, calendarToGrace (r.getD 0 0), r.getD 1 0 - r.getD 5 0 * 1e-10, r.getD 2 0 - r.getD 6 0 * 1e-10,
    r.getD 3 0 * 1e-10, r.getD 4 0 * 1e-10⟩

/-- the branches of `CS2` (SLR/CS2.py:127-273).  An unknown name leaves the dictionary empty: a
`KeyError` for the months -/
noncomputable def cs2Rows (argsort : List ℚ → List ℕ) (f : File) (ORDER : ℤ) (DATE : List ℚ) (intDates HEADER : Bool) :
    Option (List Rec2) :=
  match kindCS2 f.name with
    | .gsfc7 => do
      let rows ← f.table
      average2 argsort (rows.map fun r => r.getD 0 0) (rows.map fun r => r.getD 1 0) (rows.map fun r => r.getD 2 0)
        DATE intDates
    | .weekly => do
      let ms ← readHarmonics f
      let m ← idx7 ORDER
      average2 argsort (ms.map Month.time) (ms.map fun x => x.c 2 m) (ms.map fun x => x.s 2 m) DATE intDates
    | .csr => f.table.map fun rows => rows.map csr2
    | .gravis => (skipHeader upperProduct HEADER f.lines).bind (readLines (more 0) gravis2)
    | _ => none

/-- `CS2(SLR_file, ORDER, DATE, HEADER)` (SLR/CS2.py:88-285) -/
noncomputable def cs2 (argsort : List ℚ → List ℕ) (f : File) (ORDER : ℤ) (DATE : List ℚ) (intDates HEADER : Bool) :
    Option (List Rec2) :=
  (cs2Rows argsort f ORDER DATE intDates HEADER).map finish2

end Verif.SLR
