import Verif.TimeSeries.Lsq
import Verif.Input.Model
import Mathlib.Analysis.SpecialFunctions.Trigonometric.Basic

/-!
# Model of `regress_model` and of modelled degree one coefficients (grace_input_months.py)

Exact real arithmetic.  `np.linalg.lstsq` is the minimiser of smallest norm (Verif.TimeSeries.Lsq).
-/
namespace Verif.Extrap
open Verif.TimeSeries

/-- exceptions: `CYCLES=None` is not iterable; a single input date, or no column at all, gives an array of one dimension for which
`lstsq` raises; a period of zero gives NaN, for which `lstsq` raises -/
inductive Err where
  | typeError | linAlgError
deriving DecidableEq

/-- `RELATIVE` (grace_input_months.py:948-950) -/
noncomputable def relative {n : ℕ} (t : Fin n → ℝ) (REL : ℝ) : ℝ := if REL = 0 then (∑ i, t i) / n else REL

/-- the columns of `DMAT` and `MMAT` as functions of time (grace_input_months.py:951-963) -/
noncomputable def basis (R : ℝ) (ORDER : ℤ) (CYCLES : List ℝ) : List (ℝ → ℝ) :=
  ((List.range (ORDER + 1).toNat).map fun o : ℕ => fun t : ℝ => (t - R) ^ o) ++
    CYCLES.flatMap fun c : ℝ => [fun t : ℝ => Real.sin (2 * Real.pi * t / c), fun t : ℝ => Real.cos (2 * Real.pi * t / c)]

/-- `DMAT` transposed -/
noncomputable def design {n : ℕ} (B : List (ℝ → ℝ)) (t : Fin n → ℝ) : Matrix (Fin n) (Fin B.length) ℝ := fun i j => B[j] (t i)

open Classical in
/-- `regress_model` (grace_input_months.py:917-968) -/
noncomputable def regressModel {n : ℕ} (t d : Fin n → ℝ) (tout : List ℝ) (ORDER : ℤ := 2) (CYCLES : Option (List ℝ) := none)
    (REL : ℝ := 0) : Except Err (List ℝ) :=
  match CYCLES with
  | none => .error .typeError
  | some cs =>
    let B := basis (relative t REL) ORDER cs
    if n = 1 ∨ B.length = 0 ∨ 0 ∈ cs then .error .linAlgError
    else
      let b := lstsq (design B t) d
      .ok (tout.map fun x : ℝ => ∑ j : Fin B.length, B[j] x * b j)

/-- a degree one file: dates and coefficients -/
structure Geo (n : ℕ) where
  month : Fin n → ℤ
  time : Fin n → ℝ
  c10 : Fin n → ℝ
  c11 : Fin n → ℝ
  s11 : Fin n → ℝ

/-- the modelled coefficients at the dates of the data (grace_input_months.py:776-784) -/
noncomputable def deg1Models {n : ℕ} (g : Geo n) (times : List ℝ) : Except Err (ℕ → ℝ × ℝ × ℝ) :=
  match regressModel g.time g.c10 times 2 (some [0.5, 1.0]) 2003.3, regressModel g.time g.c11 times 2 (some [0.5, 1.0]) 2003.3,
    regressModel g.time g.s11 times 2 (some [0.5, 1.0]) 2003.3 with
  | .ok a, .ok b, .ok c => .ok fun i => (a.getD i 0, b.getD i 0, c.getD i 0)
  | .error e, _, _ => .error e
  | _, .error e, _ => .error e
  | _, _, .error e => .error e

/-- exceptions of the degree one stage -/
inductive Fail where
  | model (e : Err)
  | stage (e : Input.Err)

/-- records of the file -/
def records {n : ℕ} (g : Geo n) : List (Input.GeoRec ℝ) := (List.finRange n).map fun i => ⟨g.month i, g.c10 i, g.c11 i, g.s11 i⟩

/-- the degree one stage with `MODEL_DEG1=True` (grace_input_months.py:773-804) -/
noncomputable def modelledStage {n : ℕ} (L M : ℕ) (g : Geo n) (months : List ℤ) (times : List ℝ) (f : Input.Fields ℝ) :
    Except Fail (Input.Fields ℝ) :=
  match deg1Models g times with
  | .error e => .error (.model e)
  | .ok md =>
    match Input.deg1Stage L M (some md) (records g) months f with
    | .error e => .error (.stage e)
    | .ok f => .ok f

end Verif.Extrap
