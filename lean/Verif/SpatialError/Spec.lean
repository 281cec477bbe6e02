import Verif.SpatialError.Model
import Verif.Maps.Spec
import Verif.TimeSeries.Smooth

/-!
# Specification of the error maps
-/
namespace Verif.SpatialError
open Verif.Harmonics Verif.Legendre Verif.Maps Verif.TimeSeries

/-- `b` is a least squares fit of a constant, a trend, an annual and a semi-annual cycle to the samples `i .. i+2H` -/
def IsFit (H : ℕ) (t d : ℕ → ℝ) (i : ℕ) (b : Fin 6 → ℝ) : Prop :=
  ∀ b' : Fin 6 → ℝ, ∑ r ∈ Finset.range (2 * H + 1), (d (i + r) - seasonalModel b (t (i + r))) ^ 2 ≤
    ∑ r ∈ Finset.range (2 * H + 1), (d (i + r) - seasonalModel b' (t (i + r))) ^ 2

/-- `s` is the error of a series of `n` samples: the root mean square, over the samples with `H` neighbours on both sides, of the
difference between the sample and the fit to its window -/
def IsNoise (n H : ℕ) (t d : ℕ → ℝ) (s : ℝ) : Prop :=
  0 ≤ s ∧ ∀ b : ℕ → Fin 6 → ℝ, (∀ i < n - 2 * H, IsFit H t d i (b i)) →
    s ^ 2 * (n - 2 * H : ℕ) = ∑ i ∈ Finset.range (n - 2 * H), (d (i + H) - seasonalModel (b i) (t (i + H))) ^ 2

/-- variance of the series with independent errors `sC`, `sS` of the coefficients: degrees `LMIN..LMAX`, orders up to the degree
and up to `M`, degree dependent factors `f` -/
noncomputable def variance (LMIN LMAX M : ℕ) (f : ℕ → ℝ) (sC sS : ℕ → ℕ → ℝ) (x u phi : ℝ) : ℝ :=
  ∑ l ∈ Finset.Icc LMIN LMAX, ∑ m ∈ Finset.range (min l M + 1),
    (f l * Plm l m x u) ^ 2 * ((sC l m * Real.cos (m * phi)) ^ 2 + (sS l m * Real.sin (m * phi)) ^ 2)

/-- the coefficient whose error is estimated: the data without the static field, filtered -/
noncomputable def input (b : Bool) (o : Maps.Opts) (grace : Harm ℝ) (n : ℕ) (meanFile : Option (Harm ℝ)) (l m t : ℕ) : ℝ :=
  filt o (fun l m => coef b grace t l m - static b grace n meanFile l m) l m

/-- the map of the errors `sC`, `sS` of coefficients, each the error of one month of `k` -/
noncomputable def errorMap (eps : ℝ) (o : Maps.Opts) (f : ℕ → ℝ) (sC sS : ℕ → ℕ → ℝ) (k : ℝ) (lons lats : List ℚ) : List (List ℝ) :=
  lats.map fun lat : ℚ => lons.map fun lon : ℚ =>
    Real.sqrt (variance o.LMIN o.LMAX o.order f sC sS (Real.cos ((90 - (lat : ℝ)) * Real.pi / 180))
      (codeU eps (Real.cos ((90 - (lat : ℝ)) * Real.pi / 180))) ((lon : ℝ) * Real.pi / 180) / k)

end Verif.SpatialError
