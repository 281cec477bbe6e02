import Mathlib.Analysis.SpecialFunctions.Trigonometric.Basic
import Mathlib.Algebra.Order.Floor.Ring
import Mathlib.Algebra.BigOperators.Ring.Finset
import Mathlib.Algebra.Order.Archimedean.Real.Basic

/-!
# Model of `mascons.py`

Exact real arithmetic.  A grid has `nlat` latitudes and `nlon` longitudes given as functions of the
index, data are read as `gdata[i,j]` with `i` the latitude index.  `none` stands for NaN (the mean of an
empty selection).
-/
namespace Verif.Mascons

/-- a regular grid -/
structure Grid where
  nlat : ℕ
  nlon : ℕ
  lat : ℕ → ℝ
  lon : ℕ → ℝ

open Classical in
/-- `np.nonzero((x >= lo) & (x < hi))` over `n` entries (mascons.py:101-102, 157-158, 255-256, 313-314) -/
noncomputable def within (n : ℕ) (x : ℕ → ℝ) (lo hi : ℝ) : Finset ℕ :=
  (Finset.range n).filter fun i => lo ≤ x i ∧ x i < hi

/-- `np.mean((np.cos(lat[I]*np.pi/180.0)/np.mean(np.cos(lat[I]*np.pi/180.0)))*gdata[I,J]/d)` with
`I` and `J` broadcast against each other (mascons.py:103-106, 160-163); NaN for an empty selection -/
noncomputable def binMean (lat : ℕ → ℝ) (I J : Finset ℕ) (d : ℝ) (g : ℕ → ℕ → ℝ) : Option ℝ :=
  if I.card = 0 ∨ J.card = 0 then none
  else
    let w : ℕ → ℝ := fun i => Real.cos (lat i * Real.pi / 180)
    let wbar := (∑ i ∈ I, w i) / I.card
    some ((∑ j ∈ J, ∑ i ∈ I, w i / wbar * g i j / d) / (J.card * I.card : ℕ))

/-! ## GSFC -/

/-- one GSFC mascon: centre and central angles -/
structure Gsfc where
  lonC : ℝ
  latC : ℝ
  lonS : ℝ
  latS : ℝ

/-- `lon_center[gt180] -= 360.0` (mascons.py:66-67, 222-223).  The caller's array is changed in place. -/
noncomputable def wrapCenter (lon : ℝ) : ℝ := if 180 < lon then lon - 360 else lon

/-- `alon` (mascons.py:72-74, 230-232) -/
noncomputable def alon (lon : ℕ → ℝ) (j : ℕ) : ℝ := if lon j < 0 then lon j + 360 else lon j

/-- latitude bounds, longitude bounds before the seam treatment (mascons.py:84-91, 238-245) -/
noncomputable def bounds (k : Gsfc) : (ℝ × ℝ) × (ℝ × ℝ) :=
  if k.latC = 90 ∨ k.latC = -90 then
    ((k.latC + -1 * k.latS, k.latC + 1 * k.latS), (0, 360))
  else
    ((k.latC + -0.5 * k.latS, k.latC + 0.5 * k.latS),
     (wrapCenter k.lonC + -0.5 * k.lonS, wrapCenter k.lonC + 0.5 * k.lonS))

/-- indices of the cells in a GSFC mascon (mascons.py:84-102, 238-256) -/
noncomputable def gsfcCells (G : Grid) (k : Gsfc) : Finset ℕ × Finset ℕ :=
  let la := (bounds k).1
  let lo := (bounds k).2
  let I := within G.nlat G.lat la.1 la.2
  if lo.1 ≤ 180 ∧ 180 ≤ lo.2 then (I, within G.nlon (alon G.lon) lo.1 lo.2)
  else if lo.1 ≤ -180 ∧ -180 ≤ lo.2 then (I, within G.nlon (alon G.lon) (lo.1 + 360) (lo.2 + 360))
  else (I, within G.nlon G.lon lo.1 lo.2)

/-- value of one mascon in `to_gsfc` (mascons.py:82-106); `len(I)` is 1 after the reshape of line 103 -/
noncomputable def gsfcValue (G : Grid) (g : ℕ → ℕ → ℝ) (k : Gsfc) : Option ℝ :=
  binMean G.lat (gsfcCells G k).1 (gsfcCells G k).2 1 g

/-- `to_gsfc` (mascons.py:32-111): data, longitude and latitude of each mascon -/
noncomputable def toGsfc (G : Grid) (g : ℕ → ℕ → ℝ) (ks : List Gsfc) : List (Option ℝ × ℝ × ℝ) :=
  ks.map fun k => (gsfcValue G g k, wrapCenter k.lonC, k.latC)

/-- the grid of `from_gsfc` (mascons.py:226-227): `np.arange(a, b, s)` has `ceil((b-a)/s)` entries -/
noncomputable def gsfcGrid (s : ℝ) : Grid where
  nlat := ⌈(-90 - s / 2 - (90 - s / 2)) / -s⌉.toNat
  nlon := ⌈(180 + s / 2 - (-180 + s / 2)) / s⌉.toNat
  lat := fun i => 90 - s / 2 + i * -s
  lon := fun j => -180 + s / 2 + j * s

open Classical in
/-- `mdata[I,J] = mscdata[k]` (mascons.py:258, 316) -/
noncomputable def assign (d : ℕ → ℕ → ℝ) (IJ : Finset ℕ × Finset ℕ) (v : ℝ) : ℕ → ℕ → ℝ :=
  fun i j => if i ∈ IJ.1 ∧ j ∈ IJ.2 then v else d i j

/-- `from_gsfc` (mascons.py:180-264) without the transpose: latitude by longitude -/
noncomputable def fromGsfc (s : ℝ) (ks : List (Gsfc × ℝ)) : ℕ → ℕ → ℝ :=
  ks.foldl (fun d kv => assign d (gsfcCells (gsfcGrid s) kv.1) kv.2) fun _ _ => 0

/-- the `transpose` keyword (mascons.py:261-264, 319-322) -/
def output (transpose : Bool) (d : ℕ → ℕ → ℝ) : ℕ → ℕ → ℝ := if transpose then fun i j => d j i else d

/-! ## JPL -/

/-- one JPL mascon: the entries of `lat_bound` (columns 0, 1) and `lon_bound` (columns 0, 1, 2) -/
structure Jpl where
  lat0 : ℝ
  lat1 : ℝ
  lon0 : ℝ
  lon1 : ℝ
  lon2 : ℝ

/-- indices of the cells in a JPL mascon (mascons.py:157-158, 313-314) -/
noncomputable def jplCells (G : Grid) (k : Jpl) : Finset ℕ × Finset ℕ :=
  (within G.nlat G.lat k.lat1 k.lat0, within G.nlon G.lon k.lon0 k.lon2)

/-- results for one mascon -/
structure JplOut where
  data : Option ℝ
  mask : Bool
  lat : ℝ
  lon : ℝ

/-- one mascon of `to_jpl` (mascons.py:155-176) -/
noncomputable def jplValue (G : Grid) (g : ℕ → ℕ → ℝ) (k : Jpl) : JplOut :=
  let IJ := jplCells G k
  let nlt := IJ.1.card
  let p := if |k.lat0| = 90 then (k.lat0, 0) else ((k.lat1 + k.lat0) / 2, (k.lon1 + k.lon2) / 2)
  let p := if |k.lat1| = 90 then (k.lat1, 0) else p
  { data := if nlt = 0 then some 0 else binMean G.lat IJ.1 IJ.2 nlt g
    mask := decide (nlt = 0)
    lat := p.1
    lon := p.2 }

/-- `to_jpl` (mascons.py:113-178) -/
noncomputable def toJpl (G : Grid) (g : ℕ → ℕ → ℝ) (ks : List Jpl) : List JplOut := ks.map (jplValue G g)

/-- the grid of `from_jpl` (mascons.py:306-307) -/
noncomputable def jplGrid (s : ℝ) : Grid where
  nlat := ⌈(90 + s / 2 - (-90 + s / 2)) / s⌉.toNat
  nlon := ⌈(360 + s / 2 - s / 2) / s⌉.toNat
  lat := fun i => -90 + s / 2 + i * s
  lon := fun j => s / 2 + j * s

/-- `from_jpl` (mascons.py:266-322) without the transpose -/
noncomputable def fromJpl (s : ℝ) (ks : List (Jpl × ℝ)) : ℕ → ℕ → ℝ :=
  ks.foldl (fun d kv => assign d (jplCells (jplGrid s) kv.1) kv.2) fun _ _ => 0

end Verif.Mascons
