import Verif.Fourier.Model
import Verif.Analysis.Model
import Mathlib.Algebra.BigOperators.Intervals

/-!
# Model of `gen_harmonics(..., METHOD='fourier')`

Exact real arithmetic.
-/
namespace Verif.Fourier
open Verif.Legendre Verif.Analysis Finset

/-- `np.isclose(x, y)` with its default tolerances -/
def Isclose (x y : ℝ) : Prop := |x - y| ≤ 1 / 10 ^ 8 + 1 / 10 ^ 5 * |y|

/-- sine or cosine series of an order: cosines for even, sines for odd orders -/
noncomputable def tr (m j : ℕ) (t : ℝ) : ℝ := if m % 2 = 0 then Real.cos ((j : ℝ) * t) else Real.sin ((j : ℝ) * t)

/-- Fourier coefficients in longitude, normalised (gen_harmonics.py:264-275); `f` is `cos` for `dcos`
and `sin` for `dsin` -/
noncomputable def lonT (f : ℝ → ℝ) (nlon : ℕ) (phi : ℕ → ℝ) (d : ℕ → ℕ → ℝ) (m i : ℕ) : ℝ :=
  (if m = 0 then 1 else 2) * (∑ k ∈ range nlon, f ((m : ℝ) * phi k) * d k i) / nlon

/-- colatitude sums when neither first nor last colatitude is a pole (gen_harmonics.py:306-311) -/
noncomputable def thInner (nlat : ℕ) (th : ℕ → ℝ) (d : ℕ → ℕ → ℝ) (m n : ℕ) : ℝ :=
  2 * ∑ i ∈ range nlat, d m i * tr m n (th i)

/-- colatitude sums when both poles are in the grid (gen_harmonics.py:288-304): the end points are
multiplied by the frequency -/
noncomputable def thPoles (nlat : ℕ) (th : ℕ → ℝ) (d : ℕ → ℕ → ℝ) (m n : ℕ) : ℝ :=
  2 * (∑ i ∈ Ico 1 (nlat - 1), d m i * tr m n (th i)) +
    (d m 0 * tr m 1 (th 0) + d m (nlat - 1) * tr m 1 (th (nlat - 1))) * n

/-- the normalisations of the colatitude coefficients (gen_harmonics.py:315-326) -/
noncomputable def thNorm (nlon nlat : ℕ) (phi th : ℕ → ℝ) (T : ℕ → ℕ → ℝ) (m n : ℕ) : ℝ :=
  (if n = 0 then T m n / (2 * nlat) else T m n / nlat) *
    (nlon * |phi 1 - phi 0| / (2 * Real.pi) * nlat * |th 1 - th 0| / Real.pi)

/-- `k_even`, `k_odd` of the even and of the odd orders (gen_harmonics.py:349-357, 373-381) -/
noncomputable def kern (m k n : ℕ) : ℝ :=
  1 / 2 * ((if m % 2 = 0 then 1 else -1) / (1 - (k : ℝ) - n) + 1 / (1 + (k : ℝ) - n) +
    1 / (1 - (k : ℝ) + n) + (if m % 2 = 0 then 1 else -1) / (1 + (k : ℝ) + n))

/-- one output array (gen_harmonics.py:343-401): degrees of one parity use the frequencies of that
parity; an odd degree equal to `LMAX` and, for odd orders, degree 0 are left zero; divided by the
normalisation of the Legendre functions at the end -/
noncomputable def sumT (LMAX M : ℕ) (P : A3) (T : ℕ → ℕ → ℝ) (l m : ℕ) : ℝ :=
  if m ≤ M ∧ (if l % 2 = 0 then l ≤ LMAX ∧ (m % 2 = 1 → 2 ≤ l) else l < LMAX) then
    let cs := if l % 2 = 0 then arange2 0 (M + 1) else arange2 1 M
    (cs.map fun n : ℕ => T m n * (cs.map fun k : ℕ => P l m k * kern m k n).sum).sum / (if m = 0 then 2 else 4)
  else 0

open Classical in
/-- the choice of the colatitude sums (gen_harmonics.py:287, 306, 312-313); `none` is the `ValueError` -/
noncomputable def thSums (nlat : ℕ) (th : ℕ → ℝ) : Option ((ℕ → ℕ → ℝ) → ℕ → ℕ → ℝ) :=
  if Isclose (th 0) 0 ∧ Isclose (th (nlat - 1)) Real.pi then some (thPoles nlat th)
  else if ¬ (Isclose (th 0) 0 ∨ Isclose (th (nlat - 1)) Real.pi) then some (thInner nlat th)
  else none

/-- the Fourier coefficients of the Legendre functions, computed or supplied (gen_harmonics.py:332-336) -/
noncomputable def plmFourier (LMAX M : ℕ) (PLM : Option A3) : Option A3 :=
  match PLM with
  | some p => some p
  | none => fourierLegendre LMAX M

/-- `gen_harmonics(data, lon, lat, METHOD='fourier')` (gen_harmonics.py:104-126, 226-401).  `none` where
the code raises: fewer than two longitudes or latitudes, shapes that do not multiply, one pole only
(`ValueError`), odd `MMAX` (`k_even[:,n//2]` out of bounds), `MMAX > LMAX` or a `fourier_legendre` that
raises. -/
noncomputable def genHarmonicsFourier (d : Mat) (nlon nlat : ℕ) (lon lat : ℕ → ℝ) (LMAX : ℕ) (MMAX : Option ℕ)
    (PLM : Option A3) : Option CSlm :=
  let M := MMAX.getD LMAX
  let D := orient nlat d
  let phi : ℕ → ℝ := fun k => lon k * Real.pi / 180
  let th : ℕ → ℝ := fun i => colat (lat i)
  if nlon < 2 ∨ nlat < 2 ∨ D.rows ≠ nlon ∨ D.cols ≠ nlat ∨ M % 2 = 1 ∨ LMAX < M then none
  else
    (thSums nlat th).bind fun T => (plmFourier LMAX M PLM).map fun P =>
      ⟨sumT LMAX M P (thNorm nlon nlat phi th (T (lonT Real.cos nlon phi D.v))),
        sumT LMAX M P (thNorm nlon nlat phi th (T (lonT Real.sin nlon phi D.v)))⟩

end Verif.Fourier
