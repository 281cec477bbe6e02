import Verif.Summary.Model
import Verif.RegMaps.Break

/-!
# What a regression summary should be

A series of values is a list of maps with one cell; functions of time, labels, least squares (`Best`) and the inverse of the
normal matrix are those of the maps of a regression (Verif.RegMaps.Spec).
-/
namespace Verif.Summary
open Verif.RegMaps

/-- the series of a file -/
def series (rows : List Row) : List InMap := rows.map fun r => ⟨1, 1, fun _ _ => r.value, r.date⟩

/-- the dates do not decrease -/
def Sorted (rows : List Row) : Prop := rows.Pairwise fun a b => a.date ≤ b.date

/-- the powers and waves that are fitted have one coefficient each; a unit per year to the power -/
def unitOf : Comp → List Char
  | .power 0 => []
  | .power (o + 1) => " yr^-".toList ++ num 0 (o + 1)
  | _ => []

/-- lines of coefficients with their labels -/
noncomputable def coefPart (labels : List (List Char × List Char)) (v s c : ℕ → ℝ) : List Line :=
  labels.zipIdx.map fun x => .row x.1.1 (v x.2) (s x.2) (c x.2) x.1.2

/-- lines of waves -/
noncomputable def wavePart (ws : List Wave) (unit : List Char) (v s c : ℕ → ℝ) : List Line :=
  ws.zipIdx.map fun x => .row x.1.label (v x.2) (s x.2) (c x.2) unit

/-- label and unit of powers and waves -/
def labelsOf (units : List Char) (cs : List Comp) : List (List Char × List Char) := cs.map fun c => (c.label, units ++ unitOf c)

/-- label and unit of two trends and waves -/
def labelsBent (units : List Char) (ws : List Wave) : List (List Char × List Char) :=
  [("x0".toList, units), ("px1".toList, units ++ " yr^-1".toList), ("px1".toList, units ++ " yr^-1".toList)] ++
    (ws.flatMap fun w => [Comp.sine w, .cosine w]).map fun c => (c.label, units)

/-- amplitude `A` and phase `P` in degrees from 0 to 360 are those of the wave with coefficients `s` and `c` of sine and cosine -/
structure IsWaveOf (s c A P : ℝ) : Prop where
  nonneg : 0 ≤ A
  circle : 0 ≤ P ∧ P < 360
  same : ∀ x, s * Real.sin x + c * Real.cos x = A * Real.sin (x + P * Real.pi / 180)

/-- `eA` and `eP` are the errors `es` and `ec` of the coefficients propagated to amplitude and phase with the partial derivatives,
wherever amplitude and angle are differentiable -/
structure Propagated (s c es ec eA eP : ℝ) : Prop where
  amp : s ≠ 0 ∨ c ≠ 0 → ∃ ds dc, HasDerivAt (fun x => Real.sqrt (x ^ 2 + c ^ 2)) ds s ∧
          HasDerivAt (fun x => Real.sqrt (s ^ 2 + x ^ 2)) dc c ∧ eA = Real.sqrt ((ds * es) ^ 2 + (dc * ec) ^ 2)
  phase : ¬ (s ≤ 0 ∧ c = 0) → ∃ ds dc, HasDerivAt (fun x => 180 / Real.pi * Complex.arg ⟨x, c⟩) ds s ∧
          HasDerivAt (fun x => 180 / Real.pi * Complex.arg ⟨s, x⟩) dc c ∧ eP = Real.sqrt ((ds * es) ^ 2 + (dc * ec) ^ 2)

/-- numbers of a summary -/
structure Numbers where
  v : ℕ → ℝ
  s : ℕ → ℝ
  c : ℕ → ℝ
  A : ℕ → ℝ
  As : ℕ → ℝ
  Ac : ℕ → ℝ
  P : ℕ → ℝ
  Ps : ℕ → ℝ
  Pc : ℕ → ℝ
  dof : ℤ
  AIC : ℝ
  BIC : ℝ
  LOGLIK : ℝ
  MSE : ℝ
  NRMSE : ℝ
  R2 : ℝ
  R2Adj : ℝ

/-- the lines of a complete summary: coefficients with their labels, waves with theirs, measures of fit -/
noncomputable def fullText (name units : List Char) (labels : List (List Char × List Char)) (ws : List Wave) (m : Numbers) :
    List Line :=
  [.input name, .formula (labels.map (·.1)), .head "Coef.".toList] ++ coefPart labels m.v m.s m.c ++
    [.head "Ampl.".toList] ++ wavePart ws units m.A m.As m.Ac ++
    [.head "Phase".toList] ++ wavePart ws "Degree".toList m.P m.Ps m.Pc ++
    [.head "Fit Criterion".toList, .dof m.dof, .stat "AIC".toList m.AIC, .stat "BIC".toList m.BIC,
      .stat "LOGLIK".toList m.LOGLIK, .stat "MSE".toList m.MSE, .stat "NRMSE".toList m.NRMSE, .stat "R2".toList m.R2,
      .stat "R2Adj".toList m.R2Adj]

/-- the numbers of the waves from the coefficient `lead` on agree with the coefficients and their two kinds of errors -/
def WavesAgree (m : Numbers) (lead W : ℕ) : Prop :=
  ∀ f < W, IsWaveOf (m.v (lead + 2 * f)) (m.v (lead + 2 * f + 1)) (m.A f) (m.P f) ∧
    Propagated (m.v (lead + 2 * f)) (m.v (lead + 2 * f + 1)) (m.s (lead + 2 * f)) (m.s (lead + 2 * f + 1)) (m.As f) (m.Ps f) ∧
    Propagated (m.v (lead + 2 * f)) (m.v (lead + 2 * f + 1)) (m.c (lead + 2 * f)) (m.c (lead + 2 * f + 1)) (m.Ac f) (m.Pc f)

/-- measures of a fit of `K` coefficients with sum of squares `S`, when there are more lines than coefficients -/
structure Quality (rows : List Row) (K : ℕ) (S : ℝ) (m : Numbers) : Prop where
  dof : m.dof = (rows.length : ℤ) - K
  mse : m.MSE = S / ((rows.length : ℝ) - K)
  r2 : m.R2 = 1 - S / spread (series rows) 0 0
  r2adj : m.R2Adj = 1 - (S / ((rows.length : ℝ) - K)) / (spread (series rows) 0 0 / ((rows.length : ℝ) - 1))
  loglik : 0 < S → m.LOGLIK = logLik rows.length S
  aic : 0 < S → m.AIC = 2 * (K + 1) - 2 * logLik rows.length S
  bic : 0 < S → m.BIC = Real.log rows.length * (K + 1) - 2 * logLik rows.length S
  nrmse : ∃ top bottom : ℝ, IsGreatest {y | ∃ r ∈ rows, y = r.value} top ∧ IsLeast {y | ∃ r ∈ rows, y = r.value} bottom ∧
    m.NRMSE = Real.sqrt (S / ((rows.length : ℝ) - K)) / (top - bottom)

end Verif.Summary
