import Verif.DegreeOne.Model
import Verif.Legendre.Spec
import Verif.Units.Props

/-!
# Specification for C74 (geocenter estimate), stated without the helpers of the model
-/
namespace Verif.DegreeOne
open Verif.Legendre Verif.Units Verif.Analysis Finset

/-- unit vector of a cell, ordered (polar, Greenwich, 90 degrees east) -/
noncomputable def unitVec (g : Grid) (j : Fin 3) (k i : ℕ) : ℝ :=
  ![Real.cos ((90 - g.lat i) * Real.pi / 180),
    Real.sin ((90 - g.lat i) * Real.pi / 180) * Real.cos (g.lon k * Real.pi / 180),
    Real.sin ((90 - g.lat i) * Real.pi / 180) * Real.sin (g.lon k * Real.pi / 180)] j

/-- solid angle of a cell -/
noncomputable def area (g : Grid) (i : ℕ) : ℝ :=
  Real.sin ((90 - g.lat i) * Real.pi / 180) * (|g.lon 1 - g.lon 0| * Real.pi / 180) * (|g.lat 1 - g.lat 0| * Real.pi / 180)

/-- integral over the grid divided by `4 pi` -/
noncomputable def gridInt (g : Grid) (F : ℕ → ℕ → ℝ) : ℝ :=
  (∑ k ∈ range g.nlon, ∑ i ∈ range g.nlat, area g i * F k i) / (4 * Real.pi)

/-- integral over the ocean (land is where the mask is 1, 2 or 3, in general from 1 to 3) -/
noncomputable def oceanInt (g : Grid) (F : ℕ → ℕ → ℝ) : ℝ :=
  open Classical in gridInt g fun k i => if 1 ≤ g.mask i k ∧ g.mask i k ≤ 3 then 0 else F k i

/-- integral over the land -/
noncomputable def landInt (g : Grid) (F : ℕ → ℕ → ℝ) : ℝ :=
  open Classical in gridInt g fun k i => if 1 ≤ g.mask i k ∧ g.mask i k ≤ 3 then F k i else 0

/-- field of the fully normalised degree one coefficients `x` -/
noncomputable def degOneField (g : Grid) (x : V3) (k i : ℕ) : ℝ := Real.sqrt 3 * ∑ j, x j * unitVec g j k i

/-- mass (cm water equivalent) of a gravity coefficient of degree `l` -/
noncomputable def massFactor (E : Earth) (kl : ℕ → ℝ) (l : ℕ) : ℝ :=
  rho_e E * rad_e E * (2 * l + 1) / (3 * (1 + kl l))

/-- smoothed surface mass of the coefficients of degrees `l0..LMAX` and orders to `MMAX` -/
noncomputable def massField (g : Grid) (E : Earth) (kl wt : ℕ → ℝ) (l0 LMAX MMAX : ℕ) (a : CSlm) (k i : ℕ) : ℝ :=
  ∑ l ∈ Ico l0 (LMAX + 1), ∑ m ∈ range (min l MMAX + 1),
    massFactor E kl l * wt l *
      Plm l m (Real.cos ((90 - g.lat i) * Real.pi / 180)) (Real.sin ((90 - g.lat i) * Real.pi / 180)) *
      (a.clm l m * Real.cos (m * (g.lon k * Real.pi / 180)) + a.slm l m * Real.sin (m * (g.lon k * Real.pi / 180)))

/-- the ocean does not lie in a plane through the centre of the Earth -/
def OceanSpans (g : Grid) : Prop := ∀ x : V3,
  (∀ k < g.nlon, ∀ i < g.nlat, ¬ (1 ≤ g.mask i k ∧ g.mask i k ≤ 3) → -90 < g.lat i → g.lat i < 90 →
    ∑ j, x j * unitVec g j k i = 0) → x = 0

/-- the ocean does not lie in any plane (that is, on a circle of the sphere) -/
def OceanFull (g : Grid) : Prop := ∀ (x : V3) (c : ℝ),
  (∀ k < g.nlon, ∀ i < g.nlat, ¬ (1 ≤ g.mask i k ∧ g.mask i k ≤ 3) → -90 < g.lat i → g.lat i < 90 →
    ∑ j, x j * unitVec g j k i = c) → x = 0 ∧ c = 0

/-- the grid is global in the sense that the unit vectors average to zero -/
def GlobalGrid (g : Grid) : Prop := ∀ j, gridInt g (unitVec g j) = 0

/-- what the code needs of the grid, the constants and the Love numbers -/
structure Usable (g : Grid) (E : Earth) (kl : ℕ → ℝ) : Prop where
  ok : E.Ok
  lon2 : 2 ≤ g.nlon
  lat2 : 2 ≤ g.nlat
  ne : g.nlon ≠ g.nlat
  lats : ∀ i < g.nlat, -90 ≤ g.lat i ∧ g.lat i ≤ 90
  dlon : g.lon 1 ≠ g.lon 0
  dlat : g.lat 1 ≠ g.lat 0
  k0 : 1 + kl 0 ≠ 0
  k1 : 1 + kl 1 ≠ 0

end Verif.DegreeOne
