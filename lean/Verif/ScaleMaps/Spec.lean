import Verif.ScaleMaps.Model
import Verif.SpatialError.Spec

/-!
# What scaled maps should be
-/
namespace Verif.ScaleMaps
open Verif.Spatial

/-- a file whose arrays are latitudes by longitudes, on a grid that is not square -/
structure Regular (f : FactorFile) : Prop where
  square : f.lat.length ≠ f.lon.length
  kfactor : f.kfactor.rows = f.lat.length ∧ f.kfactor.cols = f.lon.length
  error : f.error.rows = f.lat.length ∧ f.error.cols = f.lon.length
  power : f.power.rows = f.lat.length ∧ f.power.cols = f.lon.length

/-- the cell has the factor `x`, which is not the fill value -/
def Valid (f : FactorFile) (i j : ℕ) (x : ℝ) : Prop := f.kfactor.val i j = some x ∧ f.fill ≠ some (some x)

/-- the file has a fill value, and the factor of the cell is this value or not a number -/
def Invalid (f : FactorFile) (i j : ℕ) : Prop := ∃ v, f.fill = some v ∧ (f.kfactor.val i j = none ∨ f.kfactor.val i j = v)

/-- indices of a cell at a date -/
def at3 (i j t : ℕ) : Idx := ![i, j, t]

/-- the anomaly of month number `t` at a point in centimetres of water: the truncated series from degree 0 on -/
noncomputable def anomalyAt (eps : ℝ) (o : Maps.Opts) (f : ℕ → ℝ) (grace : Harmonics.Harm ℝ) (n : ℕ)
    (meanFile : Option (Harmonics.Harm ℝ)) (gia : Harmonics.Harm ℝ) (t : ℕ) (lon lat : ℚ) : ℝ :=
  Maps.series 0 o.LMAX o.order f (Maps.signal false o grace n meanFile gia [] t) (Maps.signal true o grace n meanFile gia [] t)
    (Real.cos ((90 - (lat : ℝ)) * Real.pi / 180)) (Legendre.codeU eps (Real.cos ((90 - (lat : ℝ)) * Real.pi / 180)))
    ((lon : ℝ) * Real.pi / 180)

end Verif.ScaleMaps
