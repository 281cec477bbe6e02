import Verif.PlotGrid.Model
/-!
# Specification of maps of grids
-/
namespace Verif.PlotGrid
open Verif.Spatial

/-- the longitude `l` is at most `d` degrees from `x`, going around the Earth -/
def NearLon (d l x : ℚ) : Prop := ∃ k : ℤ, |l + 360 * (k : ℚ) - x| ≤ d

/-- `k` is the number of a latitude that is nearest to `y` -/
def NearestLat (lat : List ℚ) (k : ℕ) (y : ℚ) : Prop :=
  ∃ a, lat[k]? = some a ∧ ∀ b ∈ lat, |a - y| ≤ |b - y|

/-- a regular axis -/
def Regular (ax : List ℚ) (x0 h : ℚ) (n : ℕ) : Prop := ax = (List.range n).map fun k : ℕ => x0 + h * (k : ℚ)

/-- the arrays of a map have the dimensions of its axes -/
def Fits (o : Sp ℚ) : Prop := o.shape 0 = o.lat.length ∧ o.shape 1 = o.lon.length

/-- the pixel at `(x, y)` shows the cell `(i, j)`: its value and whether it is masked -/
def Shows (r : Except Err (Option Pixel)) (o : Sp ℚ) (i j : ℕ) : Prop :=
  r = .ok (some (o.data (cell i j), o.mask (cell i j)))

/-- what a pixel that is shown may be: a mean with weights of the values of valid cells -/
def MeanOfValid (o : Sp ℚ) (v : ℚ) : Prop :=
  ∃ l : List (ℚ × ℕ × ℕ × ℚ), (∀ p ∈ l, 0 < p.1 ∧ p.2.1 < o.shape 0 ∧ p.2.2.1 < o.shape 1 ∧
      o.mask (cell p.2.1 p.2.2.1) = false ∧ o.data (cell p.2.1 p.2.2.1) = some p.2.2.2) ∧
    (l.map fun p => p.1).sum = 1 ∧ v = (l.map fun p => p.1 * p.2.2.2).sum

end Verif.PlotGrid
