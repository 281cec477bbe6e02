import Verif.Analysis.Model
import Mathlib.LinearAlgebra.Matrix.NonsingularInverse
import Mathlib.Analysis.SpecialFunctions.Sqrt

/-!
# Model of `scripts/calc_degree_one.py` (`calc_degree_one`, the inversion)

Exact real arithmetic.  Arrays are total functions of their indices.  Modelled: land and ocean
functions, Legendre tables, smoothing and unit factors, the I-parameter matrix, the G parameters, the
eustatic part, the solution of the 3x3 systems, the iteration with its stopping rule and the final
geocenter series.  Arguments: the monthly fields as they are after the reading, mean removal and
filtering of lines 520-623 (`gsm`, `gia`, `atm`), the degree one difference `obp - gad` of lines 820-824
in units of mass and the seasonal starting series of line 671.  Not modelled: file output and plots.
With `MODEL` other than OMCT or MPIOM line 622 calls `geocenter.from_harmonics` on the class, without an
instance, which raises; `useObp = true` is the inversion that line would lead to if it were called on one.
A vector of degree one coefficients is ordered (C10, C11, S11).
-/
namespace Verif.DegreeOne
open Verif.Legendre Verif.Synthesis Verif.Units Verif.Analysis Finset

/-- a triple (C10, C11, S11) -/
abbrev V3 := Fin 3 → ℝ

/-- the landmask file: sizes, coordinates, values `mask[lat, lon]` (calc_degree_one.py:478-485) -/
structure Grid where
  nlon : ℕ
  nlat : ℕ
  lon : ℕ → ℝ
  lat : ℕ → ℝ
  mask : ℕ → ℕ → ℝ

variable (g : Grid)

/-- longitude in radians (calc_degree_one.py:490) -/
noncomputable def phi (k : ℕ) : ℝ := g.lon k * Real.pi / 180

open Classical in
/-- land function at (longitude, latitude) (calc_degree_one.py:492-497) -/
noncomputable def land (k i : ℕ) : ℝ := if 1 ≤ g.mask i k ∧ g.mask i k ≤ 3 then 1 else 0

/-- ocean function (calc_degree_one.py:499) -/
noncomputable def ocean (k i : ℕ) : ℝ := 1 - land g k i

/-- integration factor of a latitude (calc_degree_one.py:484-491, 629) -/
noncomputable def intFact (i : ℕ) : ℝ := Real.sin (colat (g.lat i)) * stepRad g.lon * stepRad g.lat

/-- everything that does not change during the iteration: grid, physical constants, Love numbers,
truncation, Legendre functions `P[l,m,lat]`, smoothing weights -/
structure Setup where
  g : Grid
  E : Earth
  hl : ℕ → ℝ
  kl : ℕ → ℝ
  ll : ℕ → ℝ
  LMAX : ℕ
  MMAX : ℕ
  P : ℕ → ℕ → ℕ → ℝ
  wt : ℕ → ℝ

/-- `wt` (calc_degree_one.py:512-518); the default cutoff of `gauss_weights` is 1e-10 -/
noncomputable def smoothing (RAD : ℝ) (LMAX : ℕ) : Option (ℕ → ℝ) :=
  open Classical in
  if RAD ≠ 0 then (gaussWeights RAD LMAX 1e-10).map fun w l => 2 * Real.pi * w l else some fun _ => 1

/-- the preparations: Legendre functions by `plm_holmes(EXPANSION, cos(th))` (calc_degree_one.py:503),
orders to `MMAX` or `LMAX` (calc_degree_one.py:460-461), smoothing.  `none`: an exception, among them
`LMAX` above `EXPANSION` (calc_degree_one.py:644) -/
noncomputable def setup (g : Grid) (E : Earth) (eps scalef : ℝ) (hl kl ll : ℕ → ℝ) (LMAX : ℕ) (MMAX : Option ℕ)
    (EXPANSION : ℕ) (RAD : ℝ) : Option Setup :=
  if EXPANSION < LMAX then none
  else do
    let P ← plmAll eps scalef EXPANSION EXPANSION g.lat none
    let wt ← smoothing RAD LMAX
    let M := match MMAX with
      | none => LMAX
      | some 0 => LMAX
      | some m => m
    some ⟨g, E, hl, kl, ll, LMAX, M, P, wt⟩

variable (s : Setup)

/-- `dfactor` (calc_degree_one.py:467, 472) -/
noncomputable def dfac (l : ℕ) : ℝ := ((harmonic s.E true false s.hl s.kl s.ll {}).cmwe.getD fun _ => 0) l

/-- `PC10`, `PC11`, `PS11` at (longitude, latitude) (calc_degree_one.py:630-636, 653-655) -/
noncomputable def Y (c : Fin 3) (k i : ℕ) : ℝ :=
  ![s.P 1 0 i * Real.cos (0 * phi s.g k), s.P 1 1 i * Real.cos (1 * phi s.g k),
    s.P 1 1 i * Real.sin (1 * phi s.g k)] c

/-- the latitude loop shared by the I-parameters (calc_degree_one.py:651-667) and the G parameters
(calc_degree_one.py:717-726): `sum(int_fact*Y*ocean*field)/(4 pi)` -/
noncomputable def project (c : Fin 3) (F : ℕ → ℕ → ℝ) : ℝ :=
  ∑ i ∈ range s.g.nlat,
    (∑ k ∈ range s.g.nlon, intFact s.g i * Y s c k i * ocean s.g k i * F k i) / (4 * Real.pi)

/-- `IMAT` (calc_degree_one.py:646-667): `IMAT[r,c]` integrates the functions of `c` and `r` -/
noncomputable def imat : Matrix (Fin 3) (Fin 3) ℝ := Matrix.of fun r c => project s c (Y s r)

/-- `plmout` (calc_degree_one.py:639-644) -/
noncomputable def plmout (l m i : ℕ) : ℝ :=
  if 1 ≤ l ∧ l ≤ s.LMAX ∧ m ≤ min l s.MMAX then s.P l m i * dfac s l * s.wt l else 0

/-- `rmass` (from degree 2) and `lmass` (from degree 1) (calc_degree_one.py:708-715, 754-765) -/
noncomputable def gridMass (l0 : ℕ) (c : CSlm) (k i : ℕ) : ℝ :=
  (∑ m ∈ range (s.MMAX + 1), Real.cos (m * phi s.g k) * ∑ l ∈ Ico l0 (s.LMAX + 1), plmout s l m i * c.clm l m) +
    ∑ m ∈ range (s.MMAX + 1), Real.sin (m * phi s.g k) * ∑ l ∈ Ico l0 (s.LMAX + 1), plmout s l m i * c.slm l m

/-- difference of two sets of coefficients -/
def subC (a b : CSlm) : CSlm := ⟨fun l m => a.clm l m - b.clm l m, fun l m => a.slm l m - b.slm l m⟩

/-- assignment of the degree one coefficients (calc_degree_one.py:733-744) -/
def setDeg1 (a : CSlm) (x : V3) : CSlm :=
  ⟨fun l m => if l = 1 ∧ m = 0 then x 0 else if l = 1 ∧ m = 1 then x 1 else a.clm l m,
   fun l m => if l = 1 ∧ m = 1 then x 2 else a.slm l m⟩

/-- the degree one part as a vector: `geocenter().from_harmonics` and calc_degree_one.py:789-791 -/
def deg1 (a : CSlm) : V3 := ![a.clm 1 0, a.clm 1 1, a.slm 1 1]

/-- the data of one month -/
structure Month where
  gsm : CSlm
  gia : CSlm
  atm : CSlm
  obp : V3

/-- `GMAT` (calc_degree_one.py:698-726) -/
noncomputable def gmat (d : Month) : V3 := fun c =>
  project s c (gridMass s 2 (subC (subC d.gsm d.gia) d.atm))

/-- `gen_stokes(field, lon, lat, UNITS=1, LMIN=0, LMAX=1, PLM=PLM[:2,:2,:], LOVE=LOVE)` of a longitude by
latitude array (calc_degree_one.py:508-510, 798-800); the tolerances play no role as `PLM` is given -/
noncomputable def stokes1 (F : ℕ → ℕ → ℝ) : Option CSlm :=
  genStokes s.E 0 1 ⟨s.g.nlon, s.g.nlat, F⟩ s.g.nlon s.g.nlat s.g.lon s.g.lat 0 1 none (.code 1) (some s.P) s.kl

/-- how the eustatic sea level is found: uniform layer, or a sea level fingerprint, given as the map
from the mass on land to sea level (`gen_stokes` and `sea_level_equation`, calc_degree_one.py:775-785), which
are modelled separately -/
inductive Eustatic where
  | uniform
  | fingerprint (f : (ℕ → ℕ → ℝ) → Option (ℕ → ℕ → ℝ))

/-- eustatic degree one coefficients of mass (calc_degree_one.py:751-810) for a month whose degree one
coefficients are set to `x` -/
noncomputable def eustatic (e : Eustatic) (d : Month) (x : V3) : Option V3 :=
  let lmass := gridMass s 1 (subC (subC (setDeg1 d.gsm x) d.gia) d.atm)
  match e with
  | .fingerprint f => do
    let seaLevel ← f fun k i => lmass k i * land s.g k i
    let slf ← stokes1 s seaLevel
    some fun c => deg1 slf c * dfac s 1
  | .uniform => do
    let oceanY ← stokes1 s (ocean s.g)
    let landY ← stokes1 s (fun k i => lmass k i * land s.g k i)
    let ratio := -landY.clm 0 0 / oceanY.clm 0 0
    some fun c => deg1 oceanY c * (ratio * dfac s 1)

/-- the `SOLVER` argument: `inv`, one of the LAPACK least squares drivers (external, an argument), or
anything else, for which no branch is taken and `DMAT` keeps its zeros (calc_degree_one.py:834-840) -/
inductive Solver where
  | inv
  | lsq (f : Matrix (Fin 3) (Fin 3) ℝ → V3 → V3)
  | other

open Classical in
/-- solution of one system (calc_degree_one.py:834-840); `none`: the matrix is singular -/
noncomputable def solve (v : Solver) (A : Matrix (Fin 3) (Fin 3) ℝ) (b : V3) : Option V3 :=
  match v with
  | .inv => if A.det = 0 then none else some (A⁻¹.mulVec b)
  | .lsq f => some (f A b)
  | .other => some fun _ => 0

/-- `DMAT[:,t]` for a month (calc_degree_one.py:731-840); `useObp`: `MODEL` is neither OMCT nor MPIOM -/
noncomputable def dmat (e : Eustatic) (v : Solver) (useObp : Bool) (d : Month) (x : V3) : Option V3 := do
  let c ← eustatic s e d x
  let c := if useObp then fun j => c j + d.obp j else c
  solve v (imat s) fun j => c j - gmat s d j

/-- degree one coefficients before mean removal (calc_degree_one.py:842-844, 865-867) -/
noncomputable def restore (d : Month) (D : V3) : V3 := fun j => D j / dfac s 1 + deg1 d.gia j + deg1 d.atm j

/-- mean over the months removed (calc_degree_one.py:846-848, 869) -/
noncomputable def centre (n : ℕ) (x : ℕ → V3) : ℕ → V3 := fun t j => x t j - (∑ u ∈ range n, x u j) / n

open Classical in
/-- a loop over the months that fails if one month does -/
noncomputable def allMonths {A : Type} [Inhabited A] (n : ℕ) (f : ℕ → Option A) : Option (ℕ → A) :=
  if ∀ t < n, (f t).isSome then some fun t => (f t).getD default else none

/-- one pass of the `while` loop (calc_degree_one.py:730-848): solutions `DMAT` and the new series -/
noncomputable def onePass (e : Eustatic) (v : Solver) (useObp : Bool) (n : ℕ) (d : ℕ → Month) (x : ℕ → V3) :
    Option ((ℕ → V3) × (ℕ → V3)) :=
  (allMonths n fun t => dmat s e v useObp (d t) (x t)).map fun D =>
    (D, centre n fun t => restore s (d t) (D t))

open Classical in
/-- `eps > eps_max` after a pass (calc_degree_one.py:849-855, 729); the quotient is NaN or infinite for
zero power -/
noncomputable def goOn (n : ℕ) (x y : ℕ → V3) : Bool :=
  let sigma := ∑ j : Fin 3, ∑ t ∈ range n, (x t j - y t j) ^ 2
  let power := ∑ t ∈ range n, ∑ j : Fin 3, x t j ^ 2
  if power = 0 then decide (sigma ≠ 0) else decide (1e-6 < Real.sqrt sigma / Real.sqrt power)

/-- the `while` loop (calc_degree_one.py:729-857) with the passes that `max_iter` leaves: the series of
all passes and the last `DMAT` -/
noncomputable def passes (e : Eustatic) (v : Solver) (useObp : Bool) (n : ℕ) (d : ℕ → Month) :
    ℕ → (ℕ → V3) → Option (List (ℕ → V3) × (ℕ → V3))
  | 0, _ => none
  | fuel + 1, x => do
    let (D, y) ← onePass s e v useObp n d x
    if goOn n x y = true ∧ 0 < fuel then
      let (ys, D') ← passes e v useObp n d fuel y
      some (y :: ys, D')
    else some ([y], D)

/-- `max_iter` (calc_degree_one.py:404-411) -/
def maxIter (ITERATIVE : Bool) : ℕ := if ITERATIVE then 15 else 1

/-- `DEG1` (calc_degree_one.py:859-869) -/
noncomputable def calcDegreeOne (e : Eustatic) (v : Solver) (useObp ITERATIVE : Bool) (n : ℕ) (d : ℕ → Month)
    (seasonal : ℕ → V3) : Option (ℕ → V3) :=
  (passes s e v useObp n d (maxIter ITERATIVE) seasonal).map fun r =>
    centre n fun t => restore s (d t) (r.2 t)

end Verif.DegreeOne
