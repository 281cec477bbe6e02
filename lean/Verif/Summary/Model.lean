import Verif.RegMaps.Fit

/-!
# Model of `scripts/quick_mascon_regress.py`

A time series file of a mascon (columns: month, date, value) is fitted with powers or with two trends, cycles and tides, and a
summary is written.  Exact real arithmetic: the numbers of the summary are not rounded to their four decimals here, tabs and
blank lines are left out.  `cycles` and `units` are always given (the command line has defaults); orders and months are natural
numbers.
-/
namespace Verif.Summary
open Verif.TimeSeries Verif.RegMaps

/-- a line of the input file after its header (quick_mascon_regress.py:71, columns 0, 1, 2) -/
structure Row where
  month : ℕ
  date : ℝ
  value : ℝ

/-- the line as a month and a map with one cell -/
def asMap (r : Row) : ℕ × InMap := (r.month, ⟨1, 1, fun _ _ => r.value, r.date⟩)

/-- exceptions: no fit given, file with less than two lines, series that cannot be fitted, coefficient without a label -/
inductive Err
  | noFit | data | fit | index
deriving DecidableEq

/-- a line of the summary (quick_mascon_regress.py:156-215) -/
inductive Line
  | input (name : List Char)
  | formula (labels : List (List Char))
  | head (title : List Char)
  | row (label : List Char) (estimate stdErr conf : ℝ) (unit : List Char)
  | dof (n : ℤ)
  | stat (name : List Char) (value : ℝ)

/-- what a run leaves: the name of the file, if one was opened, the lines written to it or to the standard output, and the
exception that ended the run -/
structure Outcome where
  file : Option (List Char)
  lines : List Line
  err : Option Err

/-- name of the summary, beside the input file; a breakpoint comes before an order (quick_mascon_regress.py:74-97) -/
def outFile (stem : List Char) (order breakpoint : Option ℕ) : Option (List Char) :=
  match breakpoint, order with
  | some b, _ => some (stem ++ "_px1_".toList ++ num 0 b ++ "_SUMMARY.txt".toList)
  | none, some o => some (stem ++ "_x".toList ++ num 0 o ++ "_SUMMARY.txt".toList)
  | none, none => none

/-- number of coefficients before the cycles (quick_mascon_regress.py:77, 84) -/
def cycleIndex (order breakpoint : Option ℕ) : ℕ :=
  match breakpoint, order with
  | some _, _ => 3
  | none, some o => 1 + o
  | none, none => 0

/-- labels and units before the cycles (quick_mascon_regress.py:78-79, 85-86) -/
def start (order breakpoint : Option ℕ) : Plan :=
  match breakpoint, order with
  | some _, _ => breakPlan
  | none, some o => polyPlan o
  | none, none => ⟨[], [], [], [], []⟩

/-- `np.nonzero(dinput[:,0] == breakpoint)` (quick_mascon_regress.py:76) -/
def breakIndex (l : List (ℕ × InMap)) (b : ℕ) : List ℕ := (l.zipIdx.filter fun mi => mi.1.1 = b).map (·.2)

/-- no options: the defaults of `regress` and `piecewise` (quick_mascon_regress.py:147-152; regress.py:101, piecewise.py:99) -/
noncomputable def quickOpts : TimeSeries.Opts := { STDEV := 0, CONF := 0, AICc := false }

/-- the fit (quick_mascon_regress.py:146-152); the labels are collected by the same loop as in regress_grace_maps.py:245-286
(quick_mascon_regress.py:101-144), which `plan`, `remaining` and `termsOf` model.  An array of several or no breakpoints cannot
be used as the start of a slice (piecewise.py:196) -/
noncomputable def quickFit (lib : Lib) (l : List (ℕ × InMap)) (order breakpoint : Option ℕ) (cycles : List ℚ) (p : Plan) :
    Option ((k : ℕ) × Result l.length k) :=
  match breakpoint, order with
  | some b, _ =>
    match breakIndex l b with
    | [i] =>
      piecewise lib.erf lib.tppf lib.eps (fun i : Fin l.length => (l.get i).2.time) (fun i => (l.get i).2.data 0 0) none (some i)
        ((remaining p cycles).map fun c : ℚ => (c : ℝ)) (termsOf (fun i : Fin l.length => (l.get i).2.time) p) (.scalar 0) false
        quickOpts
    | _ => none
  | none, some o =>
    regress lib.erf lib.tppf lib.eps (fun i : Fin l.length => (l.get i).2.time) (fun i => (l.get i).2.data 0 0) o
      ((remaining p cycles).map fun c : ℚ => (c : ℝ)) (termsOf (fun i : Fin l.length => (l.get i).2.time) p) (.scalar 0) false
      .ellipsis quickOpts
  | none, none => none

/-- standard errors; `regress` and `piecewise` give them when no data errors are given (regress.py:345-352) -/
noncomputable def stdErrOf {n : ℕ} (x : (k : ℕ) × Result n k) : ℕ → ℝ :=
  match x.2.er.stdErr with
  | some s => at' s
  | none => 0

/-- coefficients with one kind of errors -/
noncomputable def withErr {n : ℕ} (x : (k : ℕ) × Result n k) (e : ℕ → ℝ) : Cell := ⟨at' x.2.beta, e, 0, 0, 0, 0⟩

/-- a loop that writes a line for each number and stops with an exception when the list of labels is too short
(quick_mascon_regress.py:165-167, 198-200, 206-208) -/
noncomputable def table (labels : List (List Char)) (row : ℕ → List Char → Line) : ℕ → ℕ → List Line × Bool
  | _, 0 => ([], true)
  | i, n + 1 =>
    match labels[i]? with
    | none => ([], false)
    | some s => (row i s :: (table labels row (i + 1) n).1, (table labels row (i + 1) n).2)

/-- a line of the coefficients (quick_mascon_regress.py:166-167) -/
noncomputable def coefRow {n : ℕ} (x : (k : ℕ) × Result n k) (units : List Char) (p : Plan) (i : ℕ) (s : List Char) : Line :=
  .row s (at' x.2.beta i) (stdErrOf x i) (at' x.2.er.error i) (units ++ p.unit.getD i [])

/-- a line of the amplitudes (quick_mascon_regress.py:168-188, 198-200); numbers without a label stay zero -/
noncomputable def ampRow {n : ℕ} (x : (k : ℕ) × Result n k) (units : List Char) (p : Plan) (lead i : ℕ) (s : List Char) : Line :=
  if i < p.amp.length then
    .row s (ampOf (withErr x (stdErrOf x)) (lead + 2 * i)) (ampError (withErr x (stdErrOf x)) (lead + 2 * i))
      (ampError (withErr x (at' x.2.er.error)) (lead + 2 * i)) units
  else .row s 0 0 0 units

/-- a line of the phases (quick_mascon_regress.py:168-192, 206-208) -/
noncomputable def phaseRow {n : ℕ} (x : (k : ℕ) × Result n k) (p : Plan) (lead i : ℕ) (s : List Char) : Line :=
  if i < p.amp.length then
    .row s (phaseOf (withErr x (stdErrOf x)) (lead + 2 * i)) (phaseError (withErr x (stdErrOf x)) (lead + 2 * i))
      (phaseError (withErr x (at' x.2.er.error)) (lead + 2 * i)) "Degree".toList
  else .row s 0 0 0 "Degree".toList

/-- the last part (quick_mascon_regress.py:210-215) -/
noncomputable def statLines {n : ℕ} (x : (k : ℕ) × Result n k) : List Line :=
  [.head "Fit Criterion".toList, .dof x.2.st.DOF, .stat "AIC".toList x.2.st.AIC, .stat "BIC".toList x.2.st.BIC,
    .stat "LOGLIK".toList x.2.st.LOGLIK, .stat "MSE".toList x.2.er.mse, .stat "NRMSE".toList (x.2.er.NRMSE.getD 0),
    .stat "R2".toList x.2.st.R2, .stat "R2Adj".toList x.2.st.R2Adj]

/-- the summary of a fit (quick_mascon_regress.py:153-215): the lines and whether all were written -/
noncomputable def summary {n : ℕ} (inName units : List Char) (p : Plan) (cycles : List ℚ) (lead : ℕ)
    (x : (k : ℕ) × Result n k) : List Line × Bool :=
  let waves := (2 * (remaining p cycles).length + 4 * p.periods.length) / 2
  let coef := table p.coef (coefRow x units p) 0 x.1
  let first := [.input inName, .formula p.coef, .head "Coef.".toList] ++ coef.1
  if coef.2 then
    let amp := table p.amp (ampRow x units p lead) 0 waves
    if amp.2 then
      let ph := table p.amp (phaseRow x p lead) 0 waves
      if ph.2 then
        (first ++ .head "Ampl.".toList :: amp.1 ++ .head "Phase".toList :: ph.1 ++ statLines x, true)
      else (first ++ .head "Ampl.".toList :: amp.1 ++ .head "Phase".toList :: ph.1, false)
    else (first ++ .head "Ampl.".toList :: amp.1, false)
  else (first, false)

/-- `run_regress` (quick_mascon_regress.py:44-217) for the file `stem ++ ext` with the given lines.  The file of the summary is
opened before the fit -/
noncomputable def run (lib : Lib) (stem ext : List Char) (rows : List Row) (order breakpoint : Option ℕ) (cycles : List ℚ)
    (units : List Char) (stream : Bool) : Outcome :=
  match outFile stem order breakpoint with
  | none => ⟨none, [], some .noFit⟩
  | some name =>
    let file := if stream then none else some name
    if breakpoint.isSome ∧ rows.length < 2 then ⟨none, [], some .data⟩
    else
      match quickFit lib (rows.map asMap) order breakpoint cycles (plan (start order breakpoint) cycles) with
      | none => ⟨file, [], some .fit⟩
      | some x =>
        let s := summary (stem ++ ext) units (plan (start order breakpoint) cycles) cycles (cycleIndex order breakpoint) x
        ⟨file, s.1, if s.2 then none else some .index⟩

end Verif.Summary
