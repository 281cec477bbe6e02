import Verif.Fourier.Model
import Mathlib.Analysis.SpecialFunctions.Trigonometric.Basic
import Mathlib.Algebra.BigOperators.Intervals

/-!
# Model of `legendre_gradient` (fourier_legendre.py) and `harmonic_gradients`

Exact real arithmetic; one grid point (the code is elementwise over the grid).
-/
namespace Verif.Fourier
open Verif.Legendre Finset

/-- meridional table before normalisation (fourier_legendre.py:245-264): the writes of the `m+1`
terms, then the `-=` of the `m-1` terms -/
noncomputable def vRaw (lmax : ℕ) (P : A3) : A3 := fun l m j =>
  (if 1 ≤ l ∧ l ≤ lmax ∧ m = 0 then 2 * (Real.sqrt (((l : ℝ) + 1) * l / 2) * P l 1 j)
    else if 2 ≤ l ∧ l ≤ lmax ∧ 1 ≤ m ∧ m < l then
      Real.sqrt ((((l + 2 + (m - 1) : ℕ) : ℝ)) * ((l - 1 - (m - 1) : ℕ) : ℝ) / 4) * P l (m + 1) j
    else 0) -
  (if 1 ≤ l ∧ l ≤ lmax ∧ m = 1 then Real.sqrt (((l : ℝ) + 1) * l / 2) * P l 0 j
    else if 2 ≤ l ∧ l ≤ lmax ∧ 2 ≤ m ∧ m ≤ l then
      Real.sqrt ((((l + 2 + (m - 2) : ℕ) : ℝ)) * ((l - 1 - (m - 2) : ℕ) : ℝ) / 4) * P l (m - 1) j
    else 0)

/-- zonal table before normalisation (fourier_legendre.py:270-291) -/
noncomputable def wRaw (lmax : ℕ) (P : A3) : A3 := fun l m j =>
  (if 2 ≤ l ∧ l ≤ lmax ∧ 1 ≤ m ∧ m < l then
      Real.sqrt ((2 * (l : ℝ) + 1) / (2 * l - 1)) *
        (Real.sqrt (((l - 2 - (m - 1) : ℕ) : ℝ) * ((l - 1 - (m - 1) : ℕ) : ℝ) / 4) * P l (m + 1) j)
    else 0) +
  (if 1 ≤ l ∧ l ≤ lmax ∧ m = 1 then
      Real.sqrt ((2 * (l : ℝ) + 1) / (2 * l - 1)) * Real.sqrt ((l : ℝ) * (l + 1) / 2) * P (l - 1) 0 j
    else if 2 ≤ l ∧ l ≤ lmax ∧ 2 ≤ m ∧ m ≤ l then
      Real.sqrt ((2 * (l : ℝ) + 1) / (2 * l - 1)) *
        (Real.sqrt ((((l + 2 + (m - 2) : ℕ) : ℝ)) * ((l + 1 + (m - 2) : ℕ) : ℝ)) / 4 * P (l - 1) (m - 1) j)
    else 0)

/-- `legendre_gradient(lmax, mmax)` (fourier_legendre.py:218-297) -/
noncomputable def legendreGradient (lmax mmax : ℕ) : Option (A3 × A3) :=
  (fourierLegendre lmax mmax).map fun P =>
    (fun l m j =>
      let v := if 1 ≤ l then vRaw lmax P l m j / Real.sqrt (((l : ℝ) + 1) * l) else vRaw lmax P l m j
      if m = 0 then v / 2 else v,
     fun l m j => if 1 ≤ l then wRaw lmax P l m j / Real.sqrt (((l : ℝ) + 1) * l) else wRaw lmax P l m j)

/-- `harmonic_gradients(clm1, slm1, lon, lat, LMIN, LMAX)` (harmonic_gradients.py:76-164) at
longitude `phi` and colatitude `th` (radians): zonal and meridional output.  Simplified:
`MMAX = LMAX`, for other values the assignment to `dlm` cannot be broadcast; a failing
`legendre_gradient` is `none`. -/
noncomputable def harmonicGradients (LMIN LMAX : ℕ) (c s : ℕ → ℕ → ℝ) (phi th : ℝ) : Option (ℝ × ℝ) :=
  (legendreGradient LMAX LMAX).map fun vw =>
    let clm : ℕ → ℕ → ℝ := fun l m => if LMIN ≤ l ∧ l ≤ LMAX then c l m else 0
    let slm : ℕ → ℕ → ℝ := fun l m => if LMIN ≤ l ∧ l ≤ LMAX then s l m else 0
    let d0 : ℕ → ℕ → ℝ := fun l m => -clm l m * Real.sqrt (((l : ℝ) + 1) * l)
    let d1 : ℕ → ℕ → ℝ := fun l m => -slm l m * Real.sqrt (((l : ℝ) + 1) * l)
    let tr : ℕ → ℕ → ℝ := fun m n => if m % 2 = 0 then Real.sin ((n : ℝ) * th) else Real.cos ((n : ℝ) * th)
    let comp : A3 → ℝ := fun a =>
      ∑ m ∈ range (LMAX + 1),
        (Real.cos ((m : ℝ) * phi) * (∑ n ∈ range (LMAX + 1), (∑ l ∈ range (LMAX + 1), a l m n * d1 l m) * tr m n) +
         Real.sin ((m : ℝ) * phi) * (∑ n ∈ range (LMAX + 1), -(∑ l ∈ range (LMAX + 1), a l m n * d0 l m) * tr m n))
    (comp vw.2, comp vw.1)

end Verif.Fourier
