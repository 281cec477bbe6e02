import Verif.Legendre.Model

/-!
# Model of `gravity_toolkit/legendre.py`

One element `x` at a time, exact real arithmetic.  `tol` is the underflow tolerance
`sqrt(np.finfo(float).tiny)`.  The branch that replaces underflowing columns by an approximation
(legendre.py:84-115) is not modelled: it is the parameter `under`, the column it leaves behind.
-/
namespace Verif.Legendre

/-- `rootl[k]` (legendre.py:79) -/
noncomputable def rootl (k : ℕ) : ℝ := Real.sqrt k

/-- body of the loop over orders (legendre.py:131-135) -/
noncomputable def legStep (l : ℕ) (twocot : ℝ) (P : ℕ → ℝ) (m : ℕ) : ℕ → ℝ :=
  set1 P m ((P (m + 1) * twocot * ((m : ℝ) + 1) - P (m + 2) * rootl (l + m + 2) * rootl (l - m - 1)) /
    (rootl (l + m + 1) * rootl (l - m)))

/-- the column without underflow (legendre.py:120-135) written over the column `P0` -/
noncomputable def legNormal (l : ℕ) (x s : ℝ) (P0 : ℕ → ℝ) : ℕ → ℝ :=
  let twocot := -2 * x / s
  let c : ℝ := ((List.range l).map fun i : ℕ => 1 - 1 / (2 * (i : ℝ) + 2)).prod
  let P := set1 P0 l (Real.sqrt c * (-s) ^ l)
  let P := set1 P (l - 1) (P l * twocot * l / rootl (2 * l))
  (List.range (l - 1)).foldl (fun P i => legStep l twocot P (l - 2 - i)) P

/-- array `Pl` before normalisation (legendre.py:78-143), for `l >= 1` -/
noncomputable def legRaw (tol : ℝ) (under : ℕ → ℝ → ℕ → ℝ) (l : ℕ) (x : ℝ) : ℕ → ℝ :=
  let s := Real.sqrt (1 - x ^ 2)
  let sn := (-s) ^ l
  let P : ℕ → ℝ := fun _ => 0
  let P := if 0 < s ∧ |sn| ≤ tol then under l x else P
  let P := if x ≠ 1 ∧ tol ≤ |sn| then legNormal l x s P else P
  if s = 0 then set1 P 0 (x ^ l) else P

/-- `legendre(l, x, NORMALIZE)` (legendre.py:45-161): entry for order `m <= l` -/
noncomputable def legendre (tol : ℝ) (under : ℕ → ℝ → ℕ → ℝ) (l : ℕ) (x : ℝ) (normalize : Bool) (m : ℕ) : ℝ :=
  if l = 0 then 1
  else
    let Pl := legRaw tol under l x
    if normalize then
      Pl m * (if m = 0 then Real.sqrt (2 * l + 1) else (-1) ^ m * Real.sqrt (2 * (2 * l + 1)))
    else if m = l then Pl m * ((List.range (2 * l)).map fun i : ℕ => rootl (1 + i)).prod
    else if 1 ≤ m then Pl m * ((List.range (2 * m)).map fun i : ℕ => rootl (l - m + 1 + i)).prod
    else Pl m

end Verif.Legendre
