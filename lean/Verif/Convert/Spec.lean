import Verif.Convert.Model
import Verif.SpatialIO.Data
import Verif.Analysis.Grid

/-!
# What the converted coefficients should be
-/
namespace Verif.Convert
open Verif.Analysis Verif.Units
open Verif.SpatialIO.Data (Sp at3)

/-- the value of the map `t` at row `j` (latitude) and column `i` (longitude): missing cells count as zero -/
def Holds (o : Sp) (j i t : ℕ) (x : ℚ) : Prop :=
  (at3 o.mask j i t = some false ∧ at3 o.data j i t = some (some x)) ∨ (at3 o.mask j i t = some true ∧ x = 0)

/-- numerical integral of a map (`d i j` at longitude `i` and latitude `j`) against the function of degree `l` and order `m`: cosines or sines of the
longitude, true associated Legendre functions of the latitude, weights `w` -/
noncomputable def integral (f : ℝ → ℝ) (nlon nlat : ℕ) (lon lat w : ℕ → ℝ) (d : ℕ → ℕ → ℝ) (l m : ℕ) : ℝ :=
  ∑ i ∈ Finset.range nlon, ∑ j ∈ Finset.range nlat,
    f (m * phiRad lon i) * Legendre.Plm l m (Real.cos (colat (lat j))) (Real.sin (colat (lat j))) * d i j * w j

/-- the coefficients of the map `d`: degree factors times integrals up to the maximum degree and order, zero beyond -/
def IsExpansion (LMAX M : ℕ) (df : ℕ → ℝ) (nlon nlat : ℕ) (lon lat w : ℕ → ℝ) (d : ℕ → ℕ → ℝ) (c s : ℕ → ℕ → ℝ) : Prop :=
  ∀ l m, l ≤ LMAX → m ≤ M →
    (m ≤ l → c l m = df l * integral Real.cos nlon nlat lon lat w d l m ∧ s l m = df l * integral Real.sin nlon nlat lon lat w d l m) ∧
    (l < m → c l m = 0 ∧ s l m = 0)

/-- the file read back holds one field per map, in the order of the dates; the coefficients of the field of the map `t` are the numerical
integrals of the values `v j i t` (latitude `j`, longitude `i`) times degree factors; it has the date of its map and the month of this
date (if no two maps are of one month) -/
def Converted (out : HarmIO.Data.Out ℝ) (LMAX M : ℕ) (df : ℕ → ℝ) (nlat nlon nt : ℕ) (lon lat w : ℕ → ℝ) (time : ℕ → ℚ)
    (v : ℕ → ℕ → ℕ → ℚ) : Prop :=
  out.h.lmax = LMAX ∧ out.h.mmax = M ∧ out.h.nt = (if nt = 1 then none else some nt) ∧ out.h.time.length = nt ∧
  out.h.time.Pairwise (· ≤ ·) ∧ ∃ q : List ℕ, q.Perm (List.range nt) ∧
    ∀ s t, q[s]? = some t → out.h.time.getD s 0 = time t ∧
      IsExpansion LMAX M df nlon nlat lon lat w (fun i j => ((v j i t : ℚ) : ℝ)) (fun l m => out.h.clm l m s) (fun l m => out.h.slm l m s) ∧
      (((List.range nt).map fun t => Time.calendarToGrace (time t)).Nodup → out.h.month.getD s 0 = Time.calendarToGrace (time t))

end Verif.Convert
