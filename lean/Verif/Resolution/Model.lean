import Mathlib.Analysis.SpecialFunctions.Trigonometric.Inverse
import Verif.Geocenter.Model

/-!
# Model of scripts/calc_harmonic_resolution.py, and of the seasonal geocenter

Exact real arithmetic.
-/
namespace Verif.Resolution
open Verif.Geocenter

/-- `calc_harmonic_resolution` (scripts/calc_harmonic_resolution.py:44-69); `none`: `ZeroDivisionError` -/
noncomputable def resolution (LMAX : ℕ) (RADIUS : ℝ) (SPH_CAP : Bool) : Option ℝ :=
  if SPH_CAP then some (4 * RADIUS * Real.arcsin (1 / (LMAX + 1)))
  else if LMAX = 0 then none
  else some (Real.pi * RADIUS / LMAX)

/-- `main` (scripts/calc_harmonic_resolution.py:87-97): the degrees and lengths that are printed, and whether the run ends
without error -/
noncomputable def run (radius : ℝ) (cap : Bool) : List ℕ → List (ℕ × ℝ) × Bool
  | [] => ([], true)
  | l :: ls =>
    match resolution l radius cap with
    | none => ([], false)
    | some r => ((l, r) :: (run radius cap ls).1, (run radius cap ls).2)

/-- an annual and a semi-annual oscillation: amplitudes, and phases in degrees -/
structure Season where
  annual : ℝ
  annualPhase : ℝ
  semi : ℝ
  semiPhase : ℝ

/-- one component at a date (scripts/calc_degree_one.py:344-349) -/
noncomputable def Season.at (s : Season) (t : ℝ) : ℝ :=
  s.annual * Real.sin (2 * Real.pi * t + s.annualPhase * Real.pi / 180) +
    s.semi * Real.sin (4 * Real.pi * t + s.semiPhase * Real.pi / 180)

/-- land water mass (scripts/calc_degree_one.py:326-341) -/
noncomputable def seasonX : Season := ⟨1.28, 44, 0.15, 331⟩
/-- land water mass (scripts/calc_degree_one.py:326-341) -/
noncomputable def seasonY : Season := ⟨0.52, 182, 0.56, 312⟩
/-- land water mass (scripts/calc_degree_one.py:326-341) -/
noncomputable def seasonZ : Season := ⟨3.30, 43, 0.50, 75⟩

/-- `X-X.mean()` -/
noncomputable def center {n : ℕ} (x : Ser n) : Ser n := fun i => x i - (∑ j, x j) / n

/-- `model_seasonal_geocenter` (scripts/calc_degree_one.py:324-351, scripts/monte_carlo_degree_one.py:247-273): the
coefficients are those of `from_cartesian()` without a load Love number.  Date and month are not set -/
noncomputable def seasonal {n : ℕ} (t : Ser n) : Option (Geo n) :=
  fromCartesian
    { coef := noTriple n
      err := noTriple n
      cart := ⟨some (center fun i => seasonZ.at (t i)), some (center fun i => seasonX.at (t i)),
        some (center fun i => seasonY.at (t i))⟩
      sig := noTriple n
      radius := defaultRadius
      time := fun _ => 0
      month := fun _ => 0 } 0

end Verif.Resolution
