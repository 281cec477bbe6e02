import Verif.Analysis.Model

/-!
# Model of `ocean_stokes.py`

The land-sea mask file is modelled by its contents: codes on `nth` latitudes and `nphi` longitudes.
Reading the file is not modelled.  Exact real arithmetic.
-/
namespace Verif.Ocean
open Verif.Units Verif.Analysis
open Classical in
/-- the land function: 1 where `(data >= 1) & (data <= 3)` (ocean_stokes.py:110-115, 170-175) -/
noncomputable def landFunction (codes : ℕ → ℕ → ℝ) (i j : ℕ) : ℝ :=
  if 1 ≤ codes i j ∧ codes i j ≤ 3 then 1 else 0

/-- `np.roll(mask,1,axis=1)` and `np.roll(mask,-1,axis=1)` (ocean_stokes.py:201-202) -/
def rollCols (nphi : ℕ) (east : Bool) (mask : ℕ → ℕ → ℝ) (i j : ℕ) : ℝ :=
  if east then mask i ((j + 1) % nphi) else mask i ((j + (nphi - 1)) % nphi)

/-- `np.roll(mask,1,axis=0)` with row 0 overwritten by row 1 (ocean_stokes.py:203-204) -/
def upRow (nth : ℕ) (mask : ℕ → ℕ → ℝ) (i j : ℕ) : ℝ :=
  if i = 0 then mask 1 j else mask ((i + (nth - 1)) % nth) j

/-- `np.roll(mask,-1,axis=0)` with row `nth-1` overwritten by row `nth-2` (ocean_stokes.py:206-207) -/
def downRow (nth : ℕ) (mask : ℕ → ℕ → ℝ) (i j : ℕ) : ℝ :=
  if i = nth - 1 then mask (nth - 2) j else mask ((i + 1) % nth) j

/-- the array `laplacian` (ocean_stokes.py:200-208) -/
def laplacian (nth nphi : ℕ) (mask : ℕ → ℕ → ℝ) (i j : ℕ) : ℝ :=
  -4 * mask i j + mask i j * rollCols nphi false mask i j + mask i j * rollCols nphi true mask i j
    + mask i j * upRow nth mask i j + mask i j * downRow nth mask i j

open Classical in
/-- `find_isolated_points(mask)` (ocean_stokes.py:185-211); `none`: `IndexError` for a mask of a single
row -/
noncomputable def findIsolated (nth nphi : ℕ) (mask : ℕ → ℕ → ℝ) : Option (ℕ → ℕ → ℝ) :=
  if nth < 2 then none
  else some fun i j => if 3 ≤ |laplacian nth nphi mask i j| then 1 else 0

/-- the land function, simplified if asked for (ocean_stokes.py:110-118, 170-178) -/
noncomputable def landArea (nth nphi : ℕ) (codes : ℕ → ℕ → ℝ) (SIMPLIFY : Bool) : Option (ℕ → ℕ → ℝ) :=
  if SIMPLIFY then (findIsolated nth nphi (landFunction codes)).map fun iso =>
    fun i j => landFunction codes i j - iso i j
  else some (landFunction codes)

/-- the transform of a function on latitudes and longitudes: the transposed array is given to
`gen_stokes` with `UNITS=1, LMIN=0` (ocean_stokes.py:122-123, 180-181) -/
noncomputable def toStokes (E : Earth) (eps scalef : ℝ) (nth nphi : ℕ) (lon lat : ℕ → ℝ) (f : ℕ → ℕ → ℝ) (LMAX : ℕ)
    (MMAX : Option ℕ) (kl : ℕ → ℝ) : Option CSlm :=
  genStokes E eps scalef ⟨nphi, nth, fun j i => f i j⟩ nphi nth lon lat 0 LMAX (some (MMAX.getD LMAX)) (.code 1) none kl

/-- `land_stokes` (ocean_stokes.py:127-183) -/
noncomputable def landStokes (E : Earth) (eps scalef : ℝ) (nth nphi : ℕ) (lon lat : ℕ → ℝ) (codes : ℕ → ℕ → ℝ)
    (LMAX : ℕ) (MMAX : Option ℕ) (kl : ℕ → ℝ) (SIMPLIFY : Bool) : Option CSlm :=
  match landArea nth nphi codes SIMPLIFY with
  | none => none
  | some land => toStokes E eps scalef nth nphi lon lat land LMAX MMAX kl

/-- `ocean_stokes` (ocean_stokes.py:67-125) -/
noncomputable def oceanStokes (E : Earth) (eps scalef : ℝ) (nth nphi : ℕ) (lon lat : ℕ → ℝ) (codes : ℕ → ℕ → ℝ)
    (LMAX : ℕ) (MMAX : Option ℕ) (kl : ℕ → ℝ) (SIMPLIFY : Bool) : Option CSlm :=
  match landArea nth nphi codes SIMPLIFY with
  | none => none
  | some land => toStokes E eps scalef nth nphi lon lat (fun i j => 1 - land i j) LMAX MMAX kl

end Verif.Ocean
