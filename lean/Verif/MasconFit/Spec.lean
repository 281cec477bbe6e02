import Verif.MasconFit.Model

/-!
# Specification for C75 (mascon estimates), stated without the helpers of the model
-/
namespace Verif.MasconFit
open Verif.Units Verif.Analysis Finset

/-- the coefficients that take part: degrees `LMIN..LMAX`, orders to `min(l, MMAX)`, no sine of order 0 -/
def InRange (LMIN LMAX MMAX : ℕ) (p : Pos) : Prop :=
  LMIN ≤ p.2.1 ∧ p.2.1 ≤ LMAX ∧ p.2.2 ≤ p.2.1 ∧ p.2.2 ≤ MMAX ∧ (p.1 = true → 1 ≤ p.2.2)

/-- sum over those coefficients -/
noncomputable def coefSum (LMIN LMAX MMAX : ℕ) (f : Pos → ℝ) : ℝ :=
  ∑ l ∈ Icc LMIN LMAX, ((∑ m ∈ range (min MMAX l + 1), f (false, l, m)) + ∑ m ∈ Icc 1 (min MMAX l), f (true, l, m))

/-- coefficient of 1 cm of water on a mascon, the water taken from the ocean if `ocean` is given -/
noncomputable def layer (ocean : Option CSlm) (c : CSlm) (p : Pos) : ℝ :=
  match ocean with
  | none => if p.1 then c.slm p.2.1 p.2.2 else c.clm p.2.1 p.2.2
  | some o =>
    if p.1 then c.slm p.2.1 p.2.2 - c.clm 0 0 / o.clm 0 0 * o.slm p.2.1 p.2.2
    else c.clm p.2.1 p.2.2 - c.clm 0 0 / o.clm 0 0 * o.clm p.2.1 p.2.2

/-- weight of a degree in the fit: smoothed mass coefficients -/
noncomputable def massWeight (kl wt : ℕ → ℝ) (l : ℕ) : ℝ := wt l * ((2 * l + 1) / (1 + kl l))

/-- misfit of `x k` cm of water on mascon `k` to a field, in smoothed mass coefficients -/
noncomputable def misfit (a : Args) (wt : ℕ → ℝ) (Y : CSlm) (x : Fin a.n_mas → ℝ) : ℝ :=
  coefSum a.LMIN a.LMAX a.M fun p =>
    (massWeight a.kl wt p.2.1 *
      ((if p.1 then Y.slm p.2.1 p.2.2 else Y.clm p.2.1 p.2.2) - ∑ k, x k * layer a.ocean (a.mascons k) p)) ^ 2

/-- no combination of the mascons is invisible to the fit -/
def Independent (a : Args) (wt : ℕ → ℝ) : Prop := ∀ x : Fin a.n_mas → ℝ,
  (∀ p, InRange a.LMIN a.LMAX a.M p → massWeight a.kl wt p.2.1 ≠ 0 → ∑ k, x k * layer a.ocean (a.mascons k) p = 0) → x = 0

/-- a field is the sum of `x k` cm of water on mascon `k` in the coefficients that take part -/
def IsSum (a : Args) (Y : CSlm) (x : Fin a.n_mas → ℝ) : Prop := ∀ p, InRange a.LMIN a.LMAX a.M p →
  (if p.1 then Y.slm p.2.1 p.2.2 else Y.clm p.2.1 p.2.2) = ∑ k, x k * layer a.ocean (a.mascons k) p

/-- mass in Gt of 1 cm of water on a mascon with harmonics `c` -/
noncomputable def gtPerCm (E : Earth) (c : CSlm) : ℝ := 4 * Real.pi / 3 * rad_e E ^ 3 * rho_e E * c.clm 0 0 / 1e15

/-- solvers that return a least squares solution (a solution of the normal equations) when they return -/
def Solver.Sound : Solver → Prop
  | .inv => True
  | .lsq f => ∀ n k (A : Matrix (Fin n) (Fin k) ℝ) b, (A.transpose * A).mulVec (f n k A b) = A.transpose.mulVec b
  | .other => True

/-- a field with one coefficient -/
noncomputable def only (p : Pos) (x : ℝ) : CSlm :=
  open Classical in
  ⟨fun l m => if p = (false, l, m) then x else 0, fun l m => if p = (true, l, m) then x else 0⟩

/-- the field without coefficients -/
def zeroField : CSlm := ⟨fun _ _ => 0, fun _ _ => 0⟩

end Verif.MasconFit
