import Verif.DegreeOne.Model

/-!
# Model of the mascon estimates: `scripts/calc_mascon.py`, `scripts/calc_sensitivity_kernel.py`,
`scripts/mascon_reconstruct.py`

Exact real arithmetic.  Arguments of the model: the monthly coefficient fields after reading, mean
removal and filtering (calc_mascon.py:369-479), the mascon harmonics as read from their files, the
harmonics of the ocean function (modelled in `Verif.Ocean`) and the error harmonics of line 532-585.
Coefficient arrays are total functions of degree and order: files with fewer degrees than `LMAX`, for
which indexing raises, are not modelled.  File names, text formatting and file output are not modelled.
The three programs share the code for the mascon harmonics and the kernel fit line by line.
-/
namespace Verif.MasconFit
open Verif.Units Verif.Analysis Finset

/-- a position of the column arrays: sine (`true`) or cosine, degree, order -/
abbrev Pos := Bool × ℕ × ℕ

/-- the coefficient at a position: `getattr(Ylms, csharm)[l,m]` (calc_mascon.py:617-624) -/
def coef (c : CSlm) (p : Pos) : ℝ := if p.1 then c.slm p.2.1 p.2.2 else c.clm p.2.1 p.2.2

/-- orders of a degree: `range(cs, min(MMAX,l)+1)` (calc_mascon.py:630-632, calc_sensitivity_kernel.py:314-316) -/
def orders (MMAX : ℕ) (cs : Bool) (l : ℕ) : List ℕ := List.range' cs.toNat (min MMAX l + 1 - cs.toNat)

/-- the positions in the order in which the counter `ii` visits them (calc_mascon.py:612-646,
calc_sensitivity_kernel.py:301-327) -/
def positions (LMIN LMAX MMAX : ℕ) : List Pos :=
  [false, true].flatMap fun cs => (List.range' LMIN (LMAX + 1 - LMIN)).flatMap fun l =>
    (orders MMAX cs l).map fun m => (cs, l, m)

/-- `n_harm` (calc_mascon.py:589, calc_sensitivity_kernel.py:284) -/
def nHarm (LMIN LMAX MMAX : ℤ) : ℤ := LMAX ^ 2 - LMIN ^ 2 + 2 * LMAX + 1 - (LMAX - MMAX) ^ 2 - (LMAX - MMAX)

/-- total mass of 1 cm water on a mascon in g (calc_mascon.py:498, calc_sensitivity_kernel.py:257,
mascon_reconstruct.py:219) -/
noncomputable def totalArea (E : Earth) (c : CSlm) : ℝ := 4 * Real.pi * rad_e E ^ 3 * rho_e E * c.clm 0 0 / 3

/-- mascon mass taken out of the ocean (calc_mascon.py:499-510, calc_sensitivity_kernel.py:258-269,
mascon_reconstruct.py:220-231): the loops over `m <= MMAX`, `m <= l <= LMAX`; `none`: no redistribution -/
noncomputable def redistribute (LMAX MMAX : ℕ) (ocean : Option CSlm) (c : CSlm) : CSlm :=
  match ocean with
  | none => c
  | some o =>
    let ratio := c.clm 0 0 / o.clm 0 0
    ⟨fun l m => if m ≤ MMAX ∧ m ≤ l ∧ l ≤ LMAX then c.clm l m - ratio * o.clm l m else c.clm l m,
     fun l m => if m ≤ MMAX ∧ m ≤ l ∧ l ≤ LMAX then c.slm l m - ratio * o.slm l m else c.slm l m⟩

/-- `truncate(lmax=LMAX, mmax=MMAX)` (calc_mascon.py:512, mascon_reconstruct.py:233) -/
def truncateTo (LMAX MMAX : ℕ) (c : CSlm) : CSlm :=
  ⟨fun l m => if l ≤ LMAX ∧ m ≤ MMAX then c.clm l m else 0, fun l m => if l ≤ LMAX ∧ m ≤ MMAX then c.slm l m else 0⟩

/-- `MMAX = np.copy(LMAX) if not MMAX else MMAX` (calc_mascon.py:347, calc_sensitivity_kernel.py:218,
mascon_reconstruct.py:172) -/
def maxOrder (LMAX : ℕ) : Option ℕ → ℕ
  | none => LMAX
  | some 0 => LMAX
  | some m => m

/-- the arguments shared by the programs: constants, Love numbers, degree range, smoothing radius, ocean
harmonics if mascon mass is redistributed, mascon harmonics -/
structure Args where
  E : Earth
  kl : ℕ → ℝ
  LMIN : ℕ
  LMAX : ℕ
  MMAX : Option ℕ
  RAD : ℝ
  ocean : Option CSlm
  n_mas : ℕ
  mascons : Fin n_mas → CSlm

variable (a : Args)

/-- `MMAX` in use -/
def Args.M : ℕ := maxOrder a.LMAX a.MMAX

/-- a mascon as used in the fit (calc_mascon.py:499-512) -/
noncomputable def Args.mascon (k : Fin a.n_mas) : CSlm :=
  truncateTo a.LMAX a.M (redistribute a.LMAX a.M a.ocean (a.mascons k))

/-- rows of the column arrays -/
def Args.N : ℕ := (nHarm a.LMIN a.LMAX a.M).toNat

/-- an array of `n_harm` zeros filled by the counter loop; entries that the loop does not reach stay zero
(calc_mascon.py:593-610, 633-646) -/
def Args.fill (f : Pos → ℝ) (i : Fin a.N) : ℝ := ((positions a.LMIN a.LMAX a.M)[i.val]?.map f).getD 0

/-- `fact` (calc_mascon.py:642, calc_sensitivity_kernel.py:320) -/
noncomputable def Args.fact (p : Pos) : ℝ := (2 * p.2.1 + 1) / (1 + a.kl p.2.1)

/-- `M_lm` (calc_mascon.py:634, calc_sensitivity_kernel.py:318) -/
noncomputable def Args.Mlm : Matrix (Fin a.N) (Fin a.n_mas) ℝ :=
  Matrix.of fun i k => a.fill (fun p => coef (a.mascon k) p) i

/-- `MA_lm` (calc_mascon.py:649-659, calc_sensitivity_kernel.py:330-342).  Method 2 writes every row to the
whole array, so the last row is what remains everywhere.  `none`: the variable `fit_factor` is unbound -/
noncomputable def Args.MAlm (wt : ℕ → ℝ) (FIT_METHOD : ℤ) : Option (Matrix (Fin a.N) (Fin a.n_mas) ℝ) :=
  let w : Fin a.N → ℝ := a.fill fun p => wt p.2.1
  if FIT_METHOD = 1 then some (Matrix.of fun i k => a.Mlm i k * w i * a.fill a.fact i)
  else if FIT_METHOD = 2 then
    some (Matrix.of fun i k =>
      let last : Fin a.N := ⟨a.N - 1, by have := i.isLt; omega⟩
      a.Mlm last k * w last)
  else none

/-- `fit_factor` (calc_mascon.py:654, 659) -/
noncomputable def Args.fitFactor (wt : ℕ → ℝ) (FIT_METHOD : ℤ) (i : Fin a.N) : ℝ :=
  if FIT_METHOD = 1 then a.fill (fun p => wt p.2.1) i * a.fill a.fact i else a.fill (fun p => wt p.2.1) i * 1

/-- the `SOLVER` argument: `inv`, a least squares driver (numpy or LAPACK, an argument), or a name that no
branch knows (calc_mascon.py:669-675, calc_sensitivity_kernel.py:352-358) -/
inductive Solver where
  | inv
  | lsq (f : (n k : ℕ) → Matrix (Fin n) (Fin k) ℝ → (Fin n → ℝ) → (Fin k → ℝ))
  | other

open Classical in
/-- `kern_lm` (calc_mascon.py:669-675, calc_sensitivity_kernel.py:352-358); `none`: not square or singular, or
the variable is unbound -/
noncomputable def solve (v : Solver) {n k : ℕ} (A : Matrix (Fin n) (Fin k) ℝ) (b : Fin n → ℝ) : Option (Fin k → ℝ) :=
  match v with
  | .inv =>
    if h : n = k then
      let B : Matrix (Fin k) (Fin k) ℝ := A.submatrix (Fin.cast h.symm) id
      if B.det = 0 then none else some (B⁻¹.mulVec fun i => b (Fin.cast h.symm i))
    else none
  | .lsq f => some (f n k A b)
  | .other => none

/-- `A_lm` (calc_mascon.py:587-678, calc_sensitivity_kernel.py:282-361): `none` for a negative `n_harm`, a
counter that runs out of the arrays, or a failing solver -/
noncomputable def Args.kernel (FIT_METHOD : ℤ) (v : Solver) : Option (Matrix (Fin a.N) (Fin a.n_mas) ℝ) :=
  open Classical in
  if nHarm a.LMIN a.LMAX a.M < (positions a.LMIN a.LMAX a.M).length then none
  else do
    let wt ← DegreeOne.smoothing a.RAD a.LMAX
    let MA ← a.MAlm wt FIT_METHOD
    let sol : Fin a.N → Option (Fin a.n_mas → ℝ) := fun i =>
      solve v MA fun j => if j = i then 1 * a.fitFactor wt FIT_METHOD i else 0
    if ∀ i, (sol i).isSome then
      some (Matrix.of fun i k => (sol i).getD (fun _ => 0) k * totalArea a.E (a.mascons k))
    else none

/-- `Y_lm` of one month (calc_mascon.py:637-638) -/
def corrected (grace gia remove construct : CSlm) : CSlm :=
  ⟨fun l m => grace.clm l m - gia.clm l m - remove.clm l m - construct.clm l m,
   fun l m => grace.slm l m - gia.slm l m - remove.slm l m - construct.slm l m⟩

/-- `mascon[k,t]` in Gt from the kernel and the corrected field of a month (calc_mascon.py:708) -/
noncomputable def Args.massOf (A : Matrix (Fin a.N) (Fin a.n_mas) ℝ) (Y : CSlm) (k : Fin a.n_mas) : ℝ :=
  (∑ i, A i k * a.fill (coef Y) i) / 1e15

/-- `M_delta[k]` in Gt (calc_mascon.py:685) -/
noncomputable def Args.errorOf (A : Matrix (Fin a.N) (Fin a.n_mas) ℝ) (delta : CSlm) (k : Fin a.n_mas) : ℝ :=
  Real.sqrt (∑ i, (a.fill (coef delta) i * A i k) ^ 2) / 1e15

/-- output of `calc_mascon`: time series, errors and areas in km^2 (calc_mascon.py:680-713) -/
structure Series (n : ℕ) where
  mass : Fin n → ℕ → ℝ
  error : Fin n → ℝ
  area : Fin n → ℝ

/-- `calc_mascon` (calc_mascon.py:587-720) -/
noncomputable def calcMascon (FIT_METHOD : ℤ) (v : Solver) (grace gia remove construct : ℕ → CSlm) (delta : CSlm) :
    Option (Series a.n_mas) :=
  (a.kernel FIT_METHOD v).map fun A =>
    ⟨fun k t => a.massOf A (corrected (grace t) (gia t) (remove t) (construct t)) k,
     fun k => a.errorOf A delta k, fun k => totalArea a.E (a.mascons k) / 1e10⟩

/-- the column of an array at a position: the inverse of the counter (calc_sensitivity_kernel.py:374-389) -/
def Args.unfill (x : Fin a.N → ℝ) (p : Pos) : ℝ :=
  let i := (positions a.LMIN a.LMAX a.M).idxOf p
  if h : p ∈ positions a.LMIN a.LMAX a.M ∧ i < a.N then x ⟨i, h.2⟩ else 0

/-- `inv_fit_factor` (calc_sensitivity_kernel.py:322-323, 336, 342) -/
noncomputable def Args.invFit (FIT_METHOD : ℤ) (p : Pos) : ℝ :=
  if FIT_METHOD = 1 then 0.75 / (Real.pi * rho_e a.E * rad_e a.E ^ 3) * (1 + a.kl p.2.1) / (2 * p.2.1 + 1) else 1

/-- harmonics of the sensitivity kernels (calc_sensitivity_kernel.py:365-389) -/
noncomputable def sensitivityKernel (FIT_METHOD : ℤ) (v : Solver) : Option (Fin a.n_mas → CSlm) :=
  (a.kernel FIT_METHOD v).map fun A k =>
    ⟨fun l m => a.invFit FIT_METHOD (false, l, m) * a.unfill (fun i => A i k) (false, l, m),
     fun l m => a.invFit FIT_METHOD (true, l, m) * a.unfill (fun i => A i k) (true, l, m)⟩

/-- `mascon_reconstruct`: harmonics of a mascon whose mass is `mass` Gt (mascon_reconstruct.py:218-251) -/
noncomputable def reconstruct (k : Fin a.n_mas) (mass : ℝ) : CSlm :=
  let sigma := 1e15 * mass / totalArea a.E (a.mascons k)
  ⟨fun l m => (a.mascon k).clm l m * sigma, fun l m => (a.mascon k).slm l m * sigma⟩

/-- sum of the reconstructed fields of all mascons (calc_mascon.py:456-471, without filtering) -/
noncomputable def reconstructAll (mass : Fin a.n_mas → ℝ) : CSlm :=
  ⟨fun l m => ∑ k, (reconstruct a k (mass k)).clm l m, fun l m => ∑ k, (reconstruct a k (mass k)).slm l m⟩

end Verif.MasconFit
