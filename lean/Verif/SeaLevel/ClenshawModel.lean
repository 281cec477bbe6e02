import Verif.SeaLevel.Model

/-!
# Model of the Clenshaw summation written inside `sea_level_equation.py`

The module has its own `clenshaw_s_m` (without degree factors) and its own loop over orders.  They are
written out here function by function; `Verif.SeaLevel.Clenshaw` proves that they are what
`Verif.SeaLevel.Model` takes them to be.  One grid point at a time, exact real arithmetic.
-/
namespace Verif.SeaLevel
open Verif.Legendre

/-- the state of the loop over degrees: `s_mm_*_pre_1` and `s_mm_*_pre_2` -/
structure Pre where
  pre1 : ℝ
  pre2 : ℝ

/-- body of the loop over degrees for orders from 1 (sea_level_equation.py:460-469), one of the two
coefficient arrays -/
noncomputable def degStep (t : ℝ) (m : ℕ) (c : ℕ → ℕ → ℝ) (s : Pre) (l : ℕ) : Pre :=
  let a := Real.sqrt (((2 * (l : ℝ) + 1) * (2 * l + 3)) / (((l : ℝ) + 1 - m) * (l + 1 + m))) * t
  let b := Real.sqrt (((2 * (l : ℝ) + 5) * (l + m + 1) * (l - m + 1)) /
    (((l : ℝ) + 2 - m) * (l + 2 + m) * (2 * l + 1)))
  ⟨a * s.pre1 - b * s.pre2 + c l m, s.pre1⟩

/-- body of the loop over degrees for order 0 (sea_level_equation.py:476-482) -/
noncomputable def degStep0 (t : ℝ) (c : ℕ → ℕ → ℝ) (s : Pre) (l : ℕ) : Pre :=
  let a := Real.sqrt (((2 * (l : ℝ) + 1) * (2 * l + 3)) / (((l : ℝ) + 1) * (l + 1))) * t
  let b := Real.sqrt (((2 * (l : ℝ) + 5) * (l + 1) * (l + 1)) / (((l : ℝ) + 2) * (l + 2) * (2 * l + 1)))
  ⟨a * s.pre1 - b * s.pre2 + c l 0, s.pre1⟩

/-- the degrees of the loop, `range(lmax-2, m-1, -1)` (sea_level_equation.py:460, 476) -/
def degreesDown (lmax m : ℕ) : List ℕ := (List.range (lmax - 1 - m)).map fun i : ℕ => lmax - 2 - i

/-- `clenshaw_s_m` at one colatitude (sea_level_equation.py:409-485): the pair for order `m` -/
noncomputable def sleSm (SCALE t : ℝ) (m : ℕ) (clm1 slm1 : ℕ → ℕ → ℝ) (lmax : ℕ) : ℝ × ℝ :=
  let clm : ℕ → ℕ → ℝ := fun l m => SCALE * clm1 l m
  let slm : ℕ → ℕ → ℝ := fun l m => SCALE * slm1 l m
  let top : ℝ := Real.sqrt (((2 * (lmax : ℝ) - 1) * (2 * lmax + 1)) / (((lmax : ℝ) - m) * (lmax + m))) * t
  let top0 : ℝ := Real.sqrt (((2 * (lmax : ℝ) - 1) * (2 * lmax + 1)) / ((lmax : ℝ) * lmax)) * t
  let r : ℝ × ℝ :=
    if m = lmax then (clm lmax lmax, slm lmax lmax)
    else if m + 1 = lmax then
      (top * clm lmax (lmax - 1) + clm (lmax - 1) (lmax - 1),
       top * slm lmax (lmax - 1) + slm (lmax - 1) (lmax - 1))
    else if m + 2 ≤ lmax ∧ 1 ≤ m then
      (((degreesDown lmax m).foldl (degStep t m clm) ⟨top * clm lmax m + clm (lmax - 1) m, clm lmax m⟩).pre1,
       ((degreesDown lmax m).foldl (degStep t m slm) ⟨top * slm lmax m + slm (lmax - 1) m, slm lmax m⟩).pre1)
    else if m = 0 then
      (((degreesDown lmax m).foldl (degStep0 t clm) ⟨top0 * clm lmax 0 + clm (lmax - 1) 0, clm lmax 0⟩).pre1, 0)
    else (0, 0)
  (r.1 / SCALE, r.2 / SCALE)

/-- the columns `cos_m_phi`, `sin_m_phi` at one longitude and the running sum `s_m` at one point -/
structure Run where
  cos : ℕ → ℝ
  sin : ℕ → ℝ
  sum : ℝ

/-- body of the loop over orders (sea_level_equation.py:350-356); `smc` is `s_m_c` at the colatitude:
column `2m` is the first component of order `m`, column `2m+1` the second -/
noncomputable def orderStep (u phi : ℝ) (smc : ℕ → ℝ × ℝ) (s : Run) (m : ℕ) : Run :=
  let cos := set1 s.cos m (2 * Real.cos phi * s.cos (m + 1) - s.cos (m + 2))
  let sin := set1 s.sin m (2 * Real.cos phi * s.sin (m + 1) - s.sin (m + 2))
  { cos := cos
    sin := sin
    sum := Real.sqrt ((2 * m + 3) / (2 * m + 2)) * u * s.sum + (smc m).1 * cos m + (smc m).2 * sin m }

/-- the value of `sea_level[i,j]` before the mass correction at an ocean point
(sea_level_equation.py:329-359): `th` and `phi` in radians -/
noncomputable def slePoint (SCALE : ℝ) (clm1 slm1 : ℕ → ℕ → ℝ) (LMAX : ℕ) (phi th : ℝ) : ℝ :=
  let u := Real.sin th
  let smc : ℕ → ℝ × ℝ := fun m => sleSm SCALE (Real.cos th) m clm1 slm1 LMAX
  let cos := set1 (set1 (fun _ => 0) (LMAX + 1) (Real.cos ((LMAX + 1 : ℕ) * phi))) LMAX (Real.cos (LMAX * phi))
  let sin := set1 (set1 (fun _ => 0) (LMAX + 1) (Real.sin ((LMAX + 1 : ℕ) * phi))) LMAX (Real.sin (LMAX * phi))
  let first : Run := ⟨cos, sin, (smc LMAX).1 * cos LMAX + (smc LMAX).2 * sin LMAX⟩
  let last := ((List.range (LMAX - 1)).map fun i : ℕ => LMAX - 1 - i).foldl (orderStep u phi smc) first
  Real.sqrt 3 * u * last.sum + (smc 0).1

/-- `th = (90.0 - glat)*np.pi/180.0` and `phi = glon*np.pi/180.0` with the sum at an ocean point
(sea_level_equation.py:191-194, 324-359) -/
noncomputable def sleField (c : Conf) (load height : Analysis.CSlm) (i j : ℕ) : ℝ :=
  if ocean c i j ≠ 0 then
    slePoint c.SCALE
      (fun l m => coefh c l m * height.clm l m + Units.rad_e c.E * coefp c l m * load.clm l m)
      (fun l m => coefh c l m * height.slm l m + Units.rad_e c.E * coefp c l m * load.slm l m)
      c.LMAX (c.glon i * Real.pi / 180) ((90 - c.glat j) * Real.pi / 180)
  else 0

end Verif.SeaLevel
