import Verif.TimeSeries.Lsq
import Mathlib.Analysis.SpecialFunctions.Trigonometric.Basic
import Mathlib.Analysis.SpecialFunctions.Log.Basic
import Mathlib.Analysis.SpecialFunctions.Sqrt
import Mathlib.Analysis.SpecialFunctions.Complex.Arg

/-!
# Model of `time_series/regress.py`, `piecewise.py`, `amplitude.py`, `fit.py`

Exact real arithmetic.  A series of `n` samples is `Fin n → ℝ`.  Divisions by zero, which numpy
turns into NaN or infinity, give 0 here; theorems about such quotients assume the divisor is not
zero.  `erf` (scipy.special) and `tppf` (scipy.stats.t.ppf) are parameters.
-/
namespace Verif.TimeSeries
open Matrix Finset

/-- the `RELATIVE` argument (regress.py:195-200) -/
inductive Relative (n : ℕ) where
  /-- mean of all times -/
  | ellipsis
  /-- a given epoch -/
  | value (t : ℝ)
  /-- mean of the times with these indices -/
  | indices (l : List (Fin n))

/-- `t_rel` (regress.py:194-200); `none` for an empty index list, whose mean is NaN -/
noncomputable def epoch {n : ℕ} (t : Fin n → ℝ) : Relative n → Option ℝ
  | .ellipsis => some ((∑ i, t i) / n)
  | .value r => some r
  | .indices l => if l = [] then none else some ((l.map t).sum / l.length)

/-- the cyclical columns (regress.py:208-211, piecewise.py:197-200) -/
noncomputable def cycleCols {n : ℕ} (t : Fin n → ℝ) (CYCLES : List ℝ) : List (Fin n → ℝ) :=
  CYCLES.flatMap fun c => [fun i => Real.sin (2 * Real.pi * t i / c), fun i => Real.cos (2 * Real.pi * t i / c)]

/-- columns of the design matrix of `regress` (regress.py:202-214) -/
noncomputable def regressCols {n : ℕ} (t : Fin n → ℝ) (trel : ℝ) (ORDER : ℕ) (CYCLES : List ℝ)
    (TERMS : List (Fin n → ℝ)) : List (Fin n → ℝ) :=
  ((List.range (ORDER + 1)).map fun o : ℕ => fun i => (t i - trel) ^ o) ++ cycleCols t CYCLES ++ TERMS

/-- `np.transpose(DMAT)` (regress.py:216, piecewise.py:205) -/
def design {n : ℕ} (cols : List (Fin n → ℝ)) : Matrix (Fin n) (Fin cols.length) ℝ := fun i j => cols.get j i

/-- the `DATA_ERR` argument: one number or one number per sample -/
inductive DataErr (n : ℕ) where
  /-- single value -/
  | scalar (e : ℝ)
  /-- array -/
  | array (e : Fin n → ℝ)

/-- zero errors are replaced by the machine epsilon (regress.py:223-226, piecewise.py:212-215) -/
noncomputable def fixErr {n : ℕ} (eps : ℝ) (e : Fin n → ℝ) : Fin n → ℝ := fun i => if e i = 0 then eps else e i

/-- weights `DATA_ERR**(-2)` (regress.py:228, piecewise.py:217) -/
noncomputable def weights {n : ℕ} (e : Fin n → ℝ) : Fin n → ℝ := fun i => (e i ^ 2)⁻¹

/-- options that do not depend on the number of samples -/
structure Opts where
  /-- `STDEV` -/
  STDEV : ℝ := 0
  /-- `CONF` -/
  CONF : ℝ := 0
  /-- `AICc` -/
  AICc : Bool := true

/-- goodness of fit and modelled series -/
structure Stats (n : ℕ) where
  /-- modelled time series -/
  model : Fin n → ℝ
  /-- data minus model -/
  residual : Fin n → ℝ
  /-- model from the leading (non-oscillating) columns -/
  simple : Fin n → ℝ
  /-- model minus simple -/
  season : Fin n → ℝ
  /-- coefficient of determination -/
  R2 : ℝ
  /-- adjusted coefficient of determination -/
  R2Adj : ℝ
  /-- log-likelihood -/
  LOGLIK : ℝ
  /-- Akaike information criterion -/
  AIC : ℝ
  /-- Bayesian information criterion -/
  BIC : ℝ
  /-- number of terms -/
  N : ℕ
  /-- degrees of freedom -/
  DOF : ℤ

/-- sum of squared deviations from the mean (regress.py:257-259, piecewise.py:251-253) -/
noncomputable def ssTotal {n : ℕ} (d : Fin n → ℝ) : ℝ := ∑ i, (d i - (∑ j, d j) / n) ^ 2

/-- everything between the coefficients and the error analysis (regress.py:243-286,
piecewise.py:237-280).  `lead` is the number of leading columns of `simple`; `w` is 1 for ordinary
least squares (the code has the number 1.0 there, whose logarithm adds nothing). -/
noncomputable def stats {n k : ℕ} (X : Matrix (Fin n) (Fin k) ℝ) (d w : Fin n → ℝ) (b : Fin k → ℝ) (lead : ℕ)
    (AICc : Bool) : Stats n :=
  let mod : Fin n → ℝ := fun i => ∑ j, X i j * b j
  let res : Fin n → ℝ := fun i => d i - ∑ j, X i j * b j
  let simple : Fin n → ℝ := fun i => ∑ j, if j.1 < lead then X i j * b j else 0
  let nu : ℤ := (n : ℤ) - k
  let SSerror := ∑ i, (d i - ∑ j, X i j * b j) ^ 2
  let K : ℝ := k + 1
  let ll := 1 / 2 * (∑ i, Real.log (w i) -
    n * (Real.log (2 * Real.pi) + 1 - Real.log n + Real.log (∑ i, w i * res i ^ 2)))
  let aic := -2 * ll + 2 * K
  { model := mod
    residual := res
    simple := simple
    season := fun i => mod i - simple i
    R2 := 1 - SSerror / ssTotal d
    R2Adj := 1 - SSerror / ssTotal d * ((n - 1) / (nu : ℝ))
    LOGLIK := ll
    AIC := if AICc then aic + 2 * K * (K + 1) / (n - K - 1) else aic
    BIC := -2 * ll + Real.log n * K
    N := k
    DOF := nu }

/-- error analysis outputs -/
structure Errors (k : ℕ) where
  /-- error of each coefficient -/
  error : Fin k → ℝ
  /-- standard error of each coefficient (only without known errors) -/
  stdErr : Option (Fin k → ℝ)
  /-- `MSE`, or `WSSE` of the weighted case -/
  mse : ℝ
  /-- normalized root mean square error (only without known errors) -/
  NRMSE : Option ℝ
  /-- `cov_mat` -/
  cov : Matrix (Fin k) (Fin k) ℝ

/-- `alpha` (regress.py:341-350, piecewise.py:342-351) -/
noncomputable def alphaOf (erf : ℝ → ℝ) (o : Opts) : ℝ :=
  if o.STDEV ≠ 0 then 1 - erf (o.STDEV / Real.sqrt 2)
  else if o.CONF ≠ 0 then 1 - o.CONF
  else 1 - 0.95

/-- weighted least squares: coefficients, variances of the coefficients, `WSSE` and covariance
(regress.py:219-237, 289-301; piecewise.py:208-226, 283-299) -/
noncomputable def weightedFit {n k : ℕ} (X : Matrix (Fin n) (Fin k) ℝ) (d e : Fin n → ℝ) :
    Option ((Fin k → ℝ) × (Fin k → ℝ) × ℝ × Matrix (Fin k) (Fin k) ℝ) :=
  let W := Matrix.diagonal (weights e)
  (inv (Xᵀ * (W * X))).map fun H =>
    let b := H.mulVec (Xᵀ.mulVec (W.mulVec d))
    let NORMEQ := H * (W * X)ᵀ
    let nu : ℤ := (n : ℤ) - k
    (b, fun c => ∑ i, (NORMEQ c i * e i) ^ 2,
      (∑ i, weights e i * (d i - ∑ j, X i j * b j) * (weights e i * (d i - ∑ j, X i j * b j))) / (nu : ℝ), H)

/-- ordinary least squares: coefficients, `MSE` and covariance
(regress.py:238-241, 311, 318-319, 329-340; piecewise.py:227-230, 309, 319-320, 330-341) -/
noncomputable def ordinaryFit {n k : ℕ} (X : Matrix (Fin n) (Fin k) ℝ) (d : Fin n → ℝ) :
    Option ((Fin k → ℝ) × ℝ × Matrix (Fin k) (Fin k) ℝ) :=
  (inv (Xᵀ * X)).map fun H =>
    let b := lstsq X d
    let nu : ℤ := (n : ℤ) - k
    (b, (∑ i, (d i - ∑ j, X i j * b j) ^ 2) / (nu : ℝ), H)

/-- variances for a known and equal error (regress.py:309-316, piecewise.py:307-314) -/
noncomputable def knownVar {n k : ℕ} (X : Matrix (Fin n) (Fin k) ℝ) (H : Matrix (Fin k) (Fin k) ℝ) (e : ℝ) : Fin k → ℝ :=
  fun c => ∑ i, ((H * Xᵀ) c i * e) ^ 2

/-- result of `regress`/`piecewise` -/
structure Result (n k : ℕ) where
  /-- coefficients -/
  beta : Fin k → ℝ
  /-- goodness of fit -/
  st : Stats n
  /-- errors -/
  er : Errors k

/-- `regress` from the design matrix on (regress.py:218-362).  `lead = ORDER + 1`.  An array of errors without
`WEIGHT` raises (truth value of an array), a single error with `WEIGHT` raises `ValueError`. -/
noncomputable def regressFit {n k : ℕ} (erf : ℝ → ℝ) (tppf : ℝ → ℝ → ℝ) (eps : ℝ) (X : Matrix (Fin n) (Fin k) ℝ)
    (d : Fin n → ℝ) (lead : ℕ) (WEIGHT : Bool) (err : DataErr n) (o : Opts) : Option (Result n k) :=
  match WEIGHT, err with
  | true, .scalar _ => none
  | false, .array _ => none
  | true, .array e0 =>
    let e := fixErr eps e0
    (weightedFit X d e).map fun ⟨b, v, wsse, H⟩ =>
      ⟨b, stats X d (weights e) b lead o.AICc, fun c => Real.sqrt (v c), none, wsse, none, H⟩
  | false, .scalar e =>
    (ordinaryFit X d).map fun ⟨b, mse, H⟩ =>
      let st := stats X d (fun _ => 1) b lead o.AICc
      if e ≠ 0 then ⟨b, st, fun c => Real.sqrt (knownVar X H e c), none, mse, none, H⟩
      else
        let tstar := tppf (1 - alphaOf erf o / 2) ((n : ℝ) - k)
        let se : Fin k → ℝ := fun c => Real.sqrt (mse * H c c)
        ⟨b, st, fun c => tstar * se c, some se, mse, some (Real.sqrt mse / ((⨆ i, d i) - ⨅ i, d i)), H⟩

/-- `regress(t_in, d_in, ORDER, CYCLES, TERMS, DATA_ERR, WEIGHT, RELATIVE, STDEV, CONF, AICc)`
(regress.py:101-362).  A single sample raises, because `np.squeeze` removes its axis. -/
noncomputable def regress {n : ℕ} (erf : ℝ → ℝ) (tppf : ℝ → ℝ → ℝ) (eps : ℝ) (t d : Fin n → ℝ) (ORDER : ℕ)
    (CYCLES : List ℝ) (TERMS : List (Fin n → ℝ)) (err : DataErr n) (WEIGHT : Bool) (rel : Relative n) (o : Opts) :
    Option ((k : ℕ) × Result n k) :=
  if n = 1 then none
  else match epoch t rel with
    | none => none
    | some trel =>
      let cols := regressCols t trel ORDER CYCLES TERMS
      (regressFit erf tppf eps (design cols) d (ORDER + 1) WEIGHT err o).map fun r => ⟨cols.length, r⟩

/-- `np.argmin`: the first index with the smallest value (piecewise.py:183) -/
noncomputable def argminAbs (n : ℕ) (t : ℕ → ℝ) (b : ℝ) : ℕ :=
  (List.range n).foldl (fun k i => if |t i - b| < |t k - b| then i else k) 0

/-- the breakpoint index and time (piecewise.py:177-184); `none` when neither is given (unbound names) or
the index is out of range.  Simplification: negative indices are not modelled. -/
noncomputable def breakOf {n : ℕ} (t : Fin n → ℝ) (BREAK_TIME : Option ℝ) (BREAKPOINT : Option ℕ) : Option (ℕ × ℝ) :=
  match BREAKPOINT, BREAK_TIME with
  | some p, _ => if h : p < n then some (p, t ⟨p, h⟩) else none
  | none, some b => if n = 0 then none
    else some (argminAbs n (fun i => if h : i < n then t ⟨i, h⟩ else 0) b, b)
  | none, none => none

/-- the change-of-trend column `P_x1` (piecewise.py:193-196) -/
noncomputable def changeCol {n : ℕ} (t : Fin n → ℝ) (nco : ℕ) (tco : ℝ) : Fin n → ℝ :=
  fun i => if nco ≤ i.1 then t i - tco else 0

/-- columns of the design matrix of `piecewise` (piecewise.py:186-203) -/
noncomputable def piecewiseCols {n : ℕ} (t : Fin n → ℝ) (nco : ℕ) (tco : ℝ) (CYCLES : List ℝ)
    (TERMS : List (Fin n → ℝ)) : List (Fin n → ℝ) :=
  [fun i => t i ^ 0, fun i => t i ^ 1, changeCol t nco tco] ++ cycleCols t CYCLES ++ TERMS

/-- replace entry 2 (piecewise.py:235, 296, 317, 362, 365) -/
def setTwo {k : ℕ} (v : Fin k → ℝ) (x : ℝ) : Fin k → ℝ := fun j => if j.1 = 2 then x else v j

/-- entry by number, 0 outside -/
def at' {k : ℕ} (v : Fin k → ℝ) (i : ℕ) : ℝ := if h : i < k then v ⟨i, h⟩ else 0

/-- combined error of the second trend (piecewise.py:296, 317, 362, 365) -/
noncomputable def combine {k : ℕ} (v : Fin k → ℝ) : Fin k → ℝ := setTwo v (Real.sqrt (at' v 1 ^ 2 + at' v 2 ^ 2))

/-- `piecewise` from the design matrix on (piecewise.py:207-370).  `k ≥ 3` always. The code returns `simple`
only in the last case and never `season`; the model keeps both fields of `Stats`. -/
noncomputable def piecewiseFit {n k : ℕ} (erf : ℝ → ℝ) (tppf : ℝ → ℝ → ℝ) (eps : ℝ) (X : Matrix (Fin n) (Fin k) ℝ)
    (d : Fin n → ℝ) (WEIGHT : Bool) (err : DataErr n) (o : Opts) : Option (Result n k) :=
  let out : (Fin k → ℝ) → Fin k → ℝ := fun b => setTwo b (at' b 1 + at' b 2)
  match WEIGHT, err with
  | true, .scalar _ => none
  | false, .array _ => none
  | true, .array e0 =>
    let e := fixErr eps e0
    (weightedFit X d e).map fun ⟨b, v, wsse, H⟩ =>
      ⟨out b, stats X d (weights e) b 3 o.AICc, combine fun c => Real.sqrt (v c), none, wsse, none, H⟩
  | false, .scalar e =>
    (ordinaryFit X d).map fun ⟨b, mse, H⟩ =>
      let st := stats X d (fun _ => 1) b 3 o.AICc
      if e ≠ 0 then ⟨out b, st, combine (knownVar X H e), none, mse, none, H⟩
      else
        let tstar := tppf (1 - alphaOf erf o / 2) ((n : ℝ) - k)
        let se : Fin k → ℝ := fun c => Real.sqrt (mse * H c c)
        ⟨out b, st, combine fun c => tstar * se c, some (combine se), mse,
          some (Real.sqrt mse / ((⨆ i, d i) - ⨅ i, d i)), H⟩

/-- `piecewise(t_in, d_in, BREAK_TIME, BREAKPOINT, CYCLES, TERMS, DATA_ERR, WEIGHT, STDEV, CONF, AICc)`
(piecewise.py:99-370) -/
noncomputable def piecewise {n : ℕ} (erf : ℝ → ℝ) (tppf : ℝ → ℝ → ℝ) (eps : ℝ) (t d : Fin n → ℝ)
    (BREAK_TIME : Option ℝ) (BREAKPOINT : Option ℕ) (CYCLES : List ℝ) (TERMS : List (Fin n → ℝ))
    (err : DataErr n) (WEIGHT : Bool) (o : Opts) : Option ((k : ℕ) × Result n k) :=
  if n = 1 then none
  else match breakOf t BREAK_TIME BREAKPOINT with
    | none => none
    | some (nco, tco) =>
      let cols := piecewiseCols t nco tco CYCLES TERMS
      (piecewiseFit erf tppf eps (design cols) d WEIGHT err o).map fun r => ⟨cols.length, r⟩

/-- `amplitude(bsin, bcos)` (amplitude.py:33-53).  `np.arctan2(y, x)` is the argument of `x + i y`. -/
noncomputable def amplitude (bsin bcos : ℝ) : ℝ × ℝ :=
  (Real.sqrt (bsin ^ 2 + bcos ^ 2), 180 * Complex.arg ⟨bsin, bcos⟩ / Real.pi)

/-- `aliasing_terms(t_in, period)` (fit.py:18-56) -/
noncomputable def aliasingTerms {n : ℕ} (t : Fin n → ℝ) (period : ℝ) : List (Fin n → ℝ) :=
  [fun i => if t i < 2018 then Real.sin (Real.pi * t i * 730.5 / period) else 0,
   fun i => if t i < 2018 then Real.cos (Real.pi * t i * 730.5 / period) else 0,
   fun i => if 2018 ≤ t i then Real.sin (Real.pi * t i * 730.5 / period) else 0,
   fun i => if 2018 ≤ t i then Real.cos (Real.pi * t i * 730.5 / period) else 0]

end Verif.TimeSeries
