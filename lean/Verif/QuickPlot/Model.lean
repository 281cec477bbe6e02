import Verif.Summary.Model

/-!
# Model of `scripts/quick_mascon_plot.py`

Time series files of mascons (columns: month, date, value and possibly an error) are fitted and drawn.  Exact real arithmetic; months are
natural numbers.  Labels, colours, markers and the layout of the figures are left out: a curve is the list of points handed to
`plt.plot`, `none` for NaN.
-/
namespace Verif.QuickPlot
open Verif.TimeSeries Verif.RegMaps Verif.Summary

/-- a line of a file (quick_mascon_plot.py:106, columns 0 to 3) -/
structure Line where
  month : ℕ
  date : ℝ
  value : ℝ
  err : ℝ

/-- a file after its header; `four` when it has a fourth column, otherwise `err` is not read -/
structure File where
  lines : List Line
  four : Bool

/-- exceptions: less than two lines, series that cannot be fitted, two lines of a month, no fourth column, not exactly one line of the
last month of GRACE or the first one of the follow-on mission, list of labels too short, `chmod` of a string -/
inductive Err
  | data | fit | sequence | column | gap | labels | chmod
deriving DecidableEq

/-- what is printed (quick_mascon_plot.py:113-119) -/
structure Printed where
  trend : ℝ
  trendErr : ℝ
  accel : ℝ
  accelErr : ℝ
  dAIC : ℝ

/-- a point and half the width of the band around the curve -/
structure Point where
  date : ℝ
  value : ℝ
  half : Option ℝ

/-- what a plot leaves -/
structure Outcome where
  printed : Option Printed
  curve : Option (List (Option Point))
  span : Option (ℝ × ℝ)
  err : Option Err

/-- the first three columns -/
def Line.row (l : Line) : Row := ⟨l.month, l.date, l.value⟩

/-- months without data between the missions (quick_mascon_plot.py:125) -/
def GAP : List ℕ := [187, 188, 189, 190, 191, 192, 193, 194, 195, 196, 197]

/-- the fits (quick_mascon_plot.py:108-112) -/
noncomputable def plotFit (lib : Lib) (rows : List Row) (o : ℕ) : Option ((k : ℕ) × Result (rows.map asMap).length k) :=
  regress lib.erf lib.tppf lib.eps (fun i : Fin (rows.map asMap).length => ((rows.map asMap).get i).2.time)
    (fun i => ((rows.map asMap).get i).2.data 0 0) o [0.5, 1.0]
    (aliasingTerms (fun i : Fin (rows.map asMap).length => ((rows.map asMap).get i).2.time) 161) (.scalar 0) false .ellipsis quickOpts

/-- what is printed (quick_mascon_plot.py:113-119) -/
noncomputable def printedOf {n m : ℕ} (x1 : (k : ℕ) × Result n k) (x2 : (k : ℕ) × Result m k) : Printed :=
  { trend := at' x1.2.beta 1, trendErr := at' x1.2.er.error 1, accel := 2 * at' x2.2.beta 2, accelErr := 2 * at' x2.2.er.error 2
    dAIC := x2.2.st.AIC - x1.2.st.AIC }

/-- months of the first to the last line (quick_mascon_plot.py:123-124) -/
def allMonths (first last : Line) : List ℕ := List.range' first.month (last.month + 1 - first.month)

/-- months that are left out (quick_mascon_plot.py:126) -/
def missing (ls : List Line) (first last : Line) : List ℕ :=
  (allMonths first last).filter fun m => m ∉ ls.map (·.month) ∧ m ∉ GAP

/-- months of the curve (quick_mascon_plot.py:127) -/
def months (ls : List Line) (first last : Line) : List ℕ := (allMonths first last).filter fun m => m ∉ missing ls first last

/-- the point of a line (quick_mascon_plot.py:137-140, 142-145) -/
noncomputable def pointOf (first : Line) (error : Bool) (l : Line) : Point :=
  ⟨l.date, l.value - first.value, if error then some l.err else none⟩

/-- the point of a month (quick_mascon_plot.py:133-140): several lines of a month cannot be assigned to an element -/
noncomputable def monthPoint (f : File) (first : Line) (error : Bool) (m : ℕ) : Except Err (Option Point) :=
  match f.lines.filter fun l => l.month = m with
  | [] => .ok none
  | [l] => if error ∧ ¬ f.four then .error .column else .ok (some (pointOf first error l))
  | _ => .error .sequence

/-- the loop over the months -/
noncomputable def monthPoints (f : File) (first : Line) (error : Bool) : List ℕ → Except Err (List (Option Point))
  | [] => .ok []
  | m :: r =>
    match monthPoint f first error m with
    | .error e => .error e
    | .ok p => match monthPoints f first error r with
      | .error e => .error e
      | .ok ps => .ok (p :: ps)

/-- the curve (quick_mascon_plot.py:120-145) -/
noncomputable def curveOf (f : File) (first last : Line) (error monthly : Bool) : Except Err (List (Option Point)) :=
  if monthly then monthPoints f first error (months f.lines first last)
  else if error ∧ ¬ f.four then .error .column
  else .ok (f.lines.map fun l => some (pointOf first error l))

/-- dates of the lines of a month (quick_mascon_plot.py:159-160) -/
def datesOf (ls : List Line) (m : ℕ) : List ℝ := (ls.filter fun l => l.month = m).map (·.date)

/-- `run_plot` for the file with number `i` (quick_mascon_plot.py:67-172) -/
noncomputable def runPlot (lib : Lib) (i : ℕ) (individual error monthly : Bool) (f : File) : Outcome :=
  match f.lines with
  | first :: second :: rest =>
    let last := (second :: rest).getLastD first
    match plotFit lib (f.lines.map Line.row) 1, plotFit lib (f.lines.map Line.row) 2 with
    | some x1, some x2 =>
      match curveOf f first last error monthly with
      | .error e => ⟨some (printedOf x1 x2), none, none, some e⟩
      | .ok c =>
        if monthly ∧ (i = 0 ∨ individual) then
          match datesOf f.lines 186, datesOf f.lines 198 with
          | [a], [b] => ⟨some (printedOf x1 x2), some c, some (a, b), none⟩
          | _, _ => ⟨some (printedOf x1 x2), some c, none, some .gap⟩
        else ⟨some (printedOf x1 x2), some c, none, none⟩
    | _, _ => ⟨none, none, none, some .fit⟩
  | _ => ⟨none, none, none, some .data⟩

/-- the loop of `main` over the files from number `i` on (quick_mascon_plot.py:235-242); legends and drawing orders are given for the
first `labels` files, or for none -/
noncomputable def runAll (lib : Lib) (individual error monthly : Bool) (legend zorder : Option ℕ) : ℕ → List File → Option Err
  | _, [] => none
  | i, f :: r =>
    if legend.any (· ≤ i) ∨ zorder.any (· ≤ i) then some .labels
    else match (runPlot lib i individual error monthly f).err with
      | some e => some e
      | none => runAll lib individual error monthly legend zorder (i + 1) r

/-- `main` (quick_mascon_plot.py:230-278) with an output file `dir/stem.suffix`: the files that are written and the exception.  With
several figures the name has no directory and is a string, which has no method `chmod` -/
noncomputable def main (lib : Lib) (individual error monthly : Bool) (legend zorder : Option ℕ) (dir stem suffix : List Char)
    (files : List File) : List (List Char) × Option Err :=
  match runAll lib individual error monthly legend zorder 0 files with
  | some e => ([], some e)
  | none =>
    if individual ∧ 1 < files.length then ([stem ++ "_1".toList ++ suffix], some .chmod)
    else ([dir ++ "/".toList ++ stem ++ suffix], none)

end Verif.QuickPlot
