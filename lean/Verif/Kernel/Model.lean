import Verif.Synthesis.Model
import Verif.Units.Model
import Mathlib.Algebra.BigOperators.Group.Finset.Basic
import Mathlib.Analysis.SpecialFunctions.Log.Basic

/-!
# Model of `gen_averaging_kernel.py`

Exact real arithmetic; coefficient arrays are functions of degree and order.  A division by zero
(NumPy: inf or NaN) is Lean's `x / 0 = 0`: the theorems assume the denominators away.  The number of
rows of the arrays the caller passes is not modelled.
-/
namespace Verif.Kernel
open Verif.Legendre Verif.Synthesis

/-- the width parameter of the Gaussian (gen_averaging_kernel.py:118, 123); `rad_e` in cm, `hw` in km -/
noncomputable def widthB (hw rad_e : ℝ) : ℝ := Real.log 2 / (1 - Real.cos (hw / (rad_e / 1e5)))

/-- the Legendre coefficients `gl` (gen_averaging_kernel.py:120-140).  The `while` loop is the text of
the one of gauss_weights.py, so its model is shared.  `none` for `LMAX = 0`: `gl[1]` raises IndexError. -/
noncomputable def corrCoefficients (b cutoff : ℝ) (LMAX : ℕ) : Option (ℕ → ℝ) :=
  if LMAX = 0 then none
  else
    let gl := set1 (fun _ => 0) 0 ((1 - Real.exp (-2 * b)) / b)
    let gl := set1 gl 1 ((1 + Real.exp (-2 * b)) / b - (1 - Real.exp (-2 * b)) / b ^ 2)
    some (gLoop b cutoff LMAX 2 true gl)

/-- the factor of each degree (gen_averaging_kernel.py:108-116): `none` for `UNITS=0` without love
numbers (TypeError) and for any other code (UnboundLocalError, raised where `dfactor` is first read) -/
noncomputable def dfactor (E : Units.Earth) (UNITS : ℤ) (LOVE : Option ((ℕ → ℝ) × (ℕ → ℝ) × (ℕ → ℝ))) :
    Option (ℕ → ℝ) :=
  if UNITS = 0 then
    match LOVE with
    | some (hl, kl, ll) => (Units.harmonic E true false hl kl ll {}).cmwe
    | none => none
  else if UNITS = 1 then some fun _ => 1
  else none

/-- `temp` and `sigma_0` (gen_averaging_kernel.py:142-153) -/
noncomputable def sigmaZero (LMAX MMAX : ℕ) (gl : ℕ → ℝ) (gclm gslm : ℕ → ℕ → ℝ) (sigma : ℝ) : ℝ :=
  let area := gclm 0 0
  let temp := (∑ l ∈ Finset.range (LMAX + 1),
    gl l / 2 * ∑ m ∈ Finset.range (min MMAX l + 1), (gclm l m ^ 2 + gslm l m ^ 2)) / area ^ 2
  sigma / Real.sqrt temp

/-- one coefficient array of the result (gen_averaging_kernel.py:155-172): `g` the exact kernel, `e` the
errors -/
noncomputable def damp (LMAX MMAX : ℕ) (df gl : ℕ → ℝ) (sigma0 area : ℝ) (g e : ℕ → ℕ → ℝ) (l m : ℕ) : ℝ :=
  if l ≤ LMAX ∧ m ≤ min MMAX l then
    let ldivg := df l ^ 2 / (gl l * sigma0 ^ 2)
    g l m / (1 + 2 * ldivg * e l m ^ 2) * (1 / area)
  else 0 * (1 / area)

/-- `gen_averaging_kernel` (gen_averaging_kernel.py:60-172): cosine and sine coefficients -/
noncomputable def averagingKernel (E : Units.Earth) (gclm gslm eclm eslm : ℕ → ℕ → ℝ) (sigma hw : ℝ)
    (LMAX : ℕ) (MMAX : Option ℕ) (CUTOFF : ℝ) (UNITS : ℤ)
    (LOVE : Option ((ℕ → ℝ) × (ℕ → ℝ) × (ℕ → ℝ))) : Option ((ℕ → ℕ → ℝ) × (ℕ → ℕ → ℝ)) := do
  let MMAX := MMAX.getD LMAX
  let df ← dfactor E UNITS LOVE
  let gl ← corrCoefficients (widthB hw (Units.rad_e E)) CUTOFF LMAX
  let area := gclm 0 0
  let sigma0 := sigmaZero LMAX MMAX gl gclm gslm sigma
  some (damp LMAX MMAX df gl sigma0 area gclm eclm, damp LMAX MMAX df gl sigma0 area gslm eslm)

end Verif.Kernel
