import Verif.Units.Model
import Verif.Synthesis.Model
import Verif.Legendre.SingleModel

/-!
# Model of `gen_stokes.py`, `gen_harmonics.py` (integration) and `gen_point_load.py`

Exact real arithmetic.  Arrays are functions of their indices with explicit sizes.  Love number
arrays and supplied Legendre arrays are assumed to have the rows and columns that are read.
-/
namespace Verif.Analysis
open Verif.Legendre Verif.Synthesis Verif.Units

/-- a two-dimensional array -/
structure Mat where
  rows : ℕ
  cols : ℕ
  v : ℕ → ℕ → ℝ

/-- `data.T if (sz[0] == nlat) else np.copy(data)` (gen_stokes.py:150-151, gen_harmonics.py:117-118) -/
def orient (nlat : ℕ) (d : Mat) : Mat :=
  if d.rows = nlat then ⟨d.cols, d.rows, fun i j => d.v j i⟩ else d

/-- `dlon*np.pi/180.0` with `dlon = np.abs(x[1]-x[0])` (gen_stokes.py:132-137, gen_harmonics.py:162-167) -/
noncomputable def stepRad (x : ℕ → ℝ) : ℝ := |x 1 - x 0| * Real.pi / 180

/-- longitude in radians after the shift of negative values (gen_stokes.py:140-145,
gen_harmonics.py:170-173) -/
noncomputable def phiRad (lon : ℕ → ℝ) (i : ℕ) : ℝ :=
  (if lon i < 0 then lon i + 360 else lon i) * Real.pi / 180

/-- colatitude in radians (gen_stokes.py:147, gen_harmonics.py:174) -/
noncomputable def colat (lat : ℝ) : ℝ := (90 - lat) * Real.pi / 180

/-- the Legendre functions at all latitudes, those supplied or `plm_holmes` (gen_stokes.py:189-191,
gen_harmonics.py:188-195): `none` when `plm_holmes` raises or has too few orders -/
noncomputable def plmAll (eps scalef : ℝ) (LMAX MMAX : ℕ) (lat : ℕ → ℝ) (PLM : Option (ℕ → ℕ → ℕ → ℝ)) :
    Option (ℕ → ℕ → ℕ → ℝ) :=
  match PLM with
  | some p => some p
  | none =>
    if LMAX < 2 ∨ LMAX < MMAX then none
    else some fun l m j => ((holmes eps scalef LMAX (Real.cos (colat (lat j)))).map fun s => s.p l m).getD 0

/-- one output array: products with `cos` or `sin` of the longitudes summed over longitudes
(`np.dot`), then over latitudes, times the degree factor (gen_stokes.py:193-219,
gen_harmonics.py:197-221); rows below `LMIN` and columns above the diagonal keep their zeros -/
noncomputable def gridCoeff (LMIN LMAX MMAX nlon nlat : ℕ) (f : ℝ → ℝ) (p : ℕ → ℕ → ℕ → ℝ) (w phi dfactor : ℕ → ℝ)
    (d : ℕ → ℕ → ℝ) (l m : ℕ) : ℝ :=
  if LMIN ≤ l ∧ l ≤ LMAX ∧ m ≤ min MMAX l then
    dfactor l * ((List.range nlat).map fun j : ℕ =>
      p l m j * w j * ((List.range nlon).map fun i : ℕ => f (m * phi i) * d i j).sum).sum
  else 0

/-- cosine and sine coefficients -/
structure CSlm where
  clm : ℕ → ℕ → ℝ
  slm : ℕ → ℕ → ℝ

/-- the `UNITS` argument of gen_stokes and gen_point_load -/
inductive UnitArg where
  | custom (f : ℕ → ℝ)
  | code (n : ℤ)

/-- degree factor and integration factor (gen_stokes.py:153-178) as functions of the degree and of the
latitude index; `none` is the `ValueError` -/
noncomputable def stokesFactors (E : Earth) (u : UnitArg) (kl : ℕ → ℝ) (dphi dth : ℝ) (th : ℕ → ℝ) :
    Option ((ℕ → ℝ) × (ℕ → ℝ)) :=
  match u with
  | .custom f => some (f, fun j => Real.sin (th j) * dphi * dth)
  | .code n =>
    if n = 1 then (spatial E true kl {}).cmwe.map fun f => (f, fun j => Real.sin (th j) * dphi * dth)
    else if n = 2 then (spatial E true kl {}).cmwe.map fun f => (f, fun _ => 1e15 / rad_e E ^ 2)
    else if n = 3 then (spatial E true kl {}).mmwe.map fun f => (f, fun j => Real.sin (th j) * dphi * dth)
    else none

/-- `gen_stokes(data, lon, lat, LMIN, LMAX, MMAX, UNITS, PLM, LOVE)` (gen_stokes.py:79-222).  `none`:
an exception (fewer than two longitudes or latitudes, shapes that do not multiply, unknown units).
A data array with a single latitude column, which numpy would broadcast, is treated as an error. -/
noncomputable def genStokes (E : Earth) (eps scalef : ℝ) (d : Mat) (nlon nlat : ℕ) (lon lat : ℕ → ℝ)
    (LMIN LMAX : ℕ) (MMAX : Option ℕ) (u : UnitArg) (PLM : Option (ℕ → ℕ → ℕ → ℝ)) (kl : ℕ → ℝ) :
    Option CSlm :=
  let M := MMAX.getD LMAX
  let D := orient nlat d
  if nlon < 2 ∨ nlat < 2 then none
  else if D.rows ≠ nlon ∨ D.cols ≠ nlat then none
  else
    match stokesFactors E u kl (stepRad lon) (stepRad lat) (fun j => colat (lat j)),
      plmAll eps scalef LMAX M lat PLM with
    | some (df, w), some p =>
      some ⟨gridCoeff LMIN LMAX M nlon nlat Real.cos p w (phiRad lon) df D.v,
        gridCoeff LMIN LMAX M nlon nlat Real.sin p w (phiRad lon) df D.v⟩
    | _, _ => none

/-- `gen_harmonics(data, lon, lat, METHOD='integration')` (gen_harmonics.py:69-224); `other` stands for a
`METHOD` that is neither `integration` nor `fourier`, which ends in an unbound variable.  The
`fourier` method is modelled in `Verif.Fourier.HarmModel`. -/
noncomputable def genHarmonics (eps scalef : ℝ) (d : Mat) (nlon nlat : ℕ) (lon lat : ℕ → ℝ)
    (LMAX : ℕ) (MMAX : Option ℕ) (PLM : Option (ℕ → ℕ → ℕ → ℝ)) : Option CSlm :=
  let M := MMAX.getD LMAX
  let D := orient nlat d
  if nlon < 2 ∨ nlat < 2 then none
  else if D.rows ≠ nlon ∨ D.cols ≠ nlat then none
  else
    (plmAll eps scalef LMAX M lat PLM).map fun p =>
      let w : ℕ → ℝ := fun j => Real.sin (colat (lat j)) * stepRad lon * stepRad lat
      ⟨gridCoeff 0 LMAX M nlon nlat Real.cos p w (phiRad lon) (fun _ => 1 / (4 * Real.pi)) D.v,
        gridCoeff 0 LMAX M nlon nlat Real.sin p w (phiRad lon) (fun _ => 1 / (4 * Real.pi)) D.v⟩

/-! ## gen_point_load.py -/

/-- degree factor and mass factor (gen_point_load.py:113-129) -/
noncomputable def pointFactors (E : Earth) (u : UnitArg) (kl : ℕ → ℝ) : Option ((ℕ → ℝ) × ℝ) :=
  match u with
  | .custom f => some (f, 1)
  | .code n =>
    if n = 1 then (spatial E true kl {}).cmwe.map fun f => (fun l => f l / rad_e E ^ 2, 1)
    else if n = 2 then (spatial E true kl {}).cmwe.map fun f => (fun l => f l / rad_e E ^ 2, 1e15)
    else none

/-- `spherical_harmonic_matrix(l, data, phi, theta, coeff)` (gen_point_load.py:148-182), order `m` -/
noncomputable def sphMatrix (leg : ℕ → ℝ → ℕ → ℝ) (npts l : ℕ) (D phi theta : ℕ → ℝ) (coeff : ℝ) (m : ℕ) : ℂ :=
  ((List.range npts).map fun i : ℕ =>
    ((coeff * D i * leg l (Real.cos (theta i)) m : ℝ) : ℂ) * Complex.exp (Complex.I * (phi i * m : ℝ))).sum

/-- `gen_point_load(data, lon, lat, LMAX, MMAX, UNITS, LOVE)` (gen_point_load.py:65-145), the arrays
flattened to `npts` points; `leg` is `legendre(l, x, NORMALIZE=True)`.  A single point raises
`IndexError`: `np.squeeze(phi)` has no dimension left to index (gen_point_load.py:176). -/
noncomputable def genPointLoad (E : Earth) (leg : ℕ → ℝ → ℕ → ℝ) (npts : ℕ) (data lon lat : ℕ → ℝ)
    (LMAX : ℕ) (MMAX : Option ℕ) (u : UnitArg) (kl : ℕ → ℝ) : Option CSlm :=
  let M := MMAX.getD LMAX
  if npts = 1 then none
  else
    (pointFactors E u kl).map fun fi =>
      let D : ℕ → ℝ := fun i => fi.2 * data i
      let sph : ℕ → ℕ → ℂ := fun l m =>
        sphMatrix leg npts l D (fun i => Real.pi * lon i / 180) (fun i => Real.pi * (90 - lat i) / 180) (fi.1 l) m
      ⟨fun l m => if l ≤ LMAX ∧ m < min l M + 1 then (sph l m).re else 0,
        fun l m => if l ≤ LMAX ∧ m < min l M + 1 then (sph l m).im else 0⟩

end Verif.Analysis
