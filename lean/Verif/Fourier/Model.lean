import Verif.Legendre.Model

/-!
# Model of `gravity_toolkit/fourier_legendre.py`

Arrays are total functions of their indices.  Statements of the code that are vectorised over the
degrees `l_even` or `l_odd` act on each degree on its own, so the model computes the row
`plm[l,m,:]` of one degree; the loops over the Fourier index, the order and the degree are folds.
Exact real arithmetic.
-/
namespace Verif.Fourier
open Verif.Legendre

/-- `np.arange(a,b,2)` and `range(a,b,2)` -/
def arange2 (a b : ℕ) : List ℕ := (List.range ((b - a + 1) / 2)).map fun i => a + 2 * i

/-- three-dimensional array `plm[l,m,j]` -/
abbrev A3 := ℕ → ℕ → ℕ → ℝ

/-- loop body for order 0 (fourier_legendre.py:64-67, 94-97) -/
noncomputable def rec0 (l : ℕ) (r : ℕ → ℝ) (j : ℕ) : ℕ → ℝ :=
  set1 r (j + 2) ((2 * ((l : ℝ) * (l + 1) - (j : ℝ) ^ 2) * r j +
    (((j : ℝ) - 2) * (j - 1) - l * (l + 1)) * r (j - 2)) / ((l : ℝ) * (l + 1) - (j + 2) * (j + 1)))

/-- loop body for order 1 (fourier_legendre.py:116-119, 140-143) -/
noncomputable def rec1 (l : ℕ) (r : ℕ → ℝ) (j : ℕ) : ℕ → ℝ :=
  set1 r (j + 2) ((2 * ((l : ℝ) * (l + 1) - (j : ℝ) ^ 2 - 2) * r j +
    (((j : ℝ) - 2) * (j - 1) - l * (l + 1)) * r (j - 2)) / ((l : ℝ) * (l + 1) - (j + 2) * (j + 1)))

/-- `plm[l,0,:]` for an even degree before normalisation (fourier_legendre.py:60-71) -/
noncomputable def row0e (lmax l : ℕ) : ℕ → ℝ :=
  let r := set1 (fun _ => 0) 0 1
  let r := set1 r 2 ((l : ℝ) * (l + 1) * r 0 / ((l : ℝ) * (l + 1) - 2))
  let r := (arange2 2 lmax).foldl (rec0 l) r
  set1 r 0 (r 0 / 2)

/-- `plm[l,0,:]` for an odd degree before normalisation (fourier_legendre.py:90-97) -/
noncomputable def row0o (lmax l : ℕ) : ℕ → ℝ :=
  let r := set1 (fun _ => 0) 1 1
  let r := set1 r 3 ((2 - (l : ℝ) * (l + 1)) * r 1 / (6 - (l : ℝ) * (l + 1)))
  (arange2 3 (lmax - 1)).foldl (rec0 l) r

/-- `plm[l,1,:]` for an even degree before normalisation (fourier_legendre.py:113-119) -/
noncomputable def row1e (lmax l : ℕ) : ℕ → ℝ :=
  (arange2 2 lmax).foldl (rec1 l) (set1 (set1 (fun _ => 0) 0 0) 2 1)

/-- `plm[l,1,:]` for an odd degree before normalisation (fourier_legendre.py:137-143) -/
noncomputable def row1o (lmax l : ℕ) : ℕ → ℝ :=
  let r := set1 (fun _ => 0) 1 1
  let r := set1 r 3 (3 * ((l : ℝ) * (l + 1) - 2) * r 1 / ((l : ℝ) * (l + 1) - 6))
  (arange2 3 (lmax - 1)).foldl (rec1 l) r

/-- `norm` of an order 0 row (fourier_legendre.py:73-79, 100-106): `js` are the values of the loop
variable, `ks` the columns `m_even` or `m_odd` -/
noncomputable def norm0 (js ks : List ℕ) (r : ℕ → ℝ) : ℝ :=
  (js.map fun j : ℕ => r j * (ks.map fun k : ℕ => r k * (1 / (1 - (j : ℝ) - k) + 1 / (1 + (j : ℝ) - k) +
    1 / (1 - (j : ℝ) + k) + 1 / (1 + (j : ℝ) + k))).sum / 2).sum

/-- `norm` of an order 1 row (fourier_legendre.py:123-129, 146-152) -/
noncomputable def norm1 (js ks : List ℕ) (r : ℕ → ℝ) : ℝ :=
  (js.map fun j : ℕ => r j * (ks.map fun k : ℕ => r k * (-1 / (1 - (j : ℝ) - k) + 1 / (1 + (j : ℝ) - k) +
    1 / (1 - (j : ℝ) + k) - 1 / (1 + (j : ℝ) + k))).sum / 2).sum

/-- the array after orders 0 and 1 (fourier_legendre.py:50-156); zero elsewhere -/
noncomputable def base (lmax mmax : ℕ) : A3 := fun l m j =>
  if l ≤ lmax ∧ j ≤ lmax then
    if m = 0 then
      if l % 2 = 0 then
        row0e lmax l j / Real.sqrt (norm0 (arange2 0 (lmax + 2)) (arange2 0 (mmax + 1)) (row0e lmax l) / 2)
      else
        row0o lmax l j / Real.sqrt (norm0 (arange2 1 (lmax + 1)) (arange2 1 mmax) (row0o lmax l) / 2)
    else if m = 1 then
      if l % 2 = 0 then
        row1e lmax l j / Real.sqrt (norm1 (arange2 0 (lmax + 2)) (arange2 0 (mmax + 1)) (row1e lmax l) / 4)
      else
        row1o lmax l j / Real.sqrt (norm1 (arange2 1 (lmax + 1)) (arange2 1 mmax) (row1o lmax l) / 4)
    else 0
  else 0

/-- `plm[l+2,m+2,cols] = (p1 - p2 + p3)/dfactor` (fourier_legendre.py:164-168 and 172-176 with
`h = 2`; 183-187, 191-195, 201-205, 209-213 with `h = 1`) -/
noncomputable def relate (h : ℝ) (cols : List ℕ) (m : ℕ) (P : A3) (l : ℕ) : A3 := fun l' m' j =>
  if l' = l + 2 ∧ m' = m + 2 ∧ j ∈ cols then
    (Real.sqrt (((l : ℝ) + m + 2) * (l + m + 1) / (2 * l + 1)) * P l m j -
      Real.sqrt (((l : ℝ) - m + 1) * (l - m + 2) / (2 * l + 5)) * P (l + 2) m j +
      Real.sqrt (((l : ℝ) - m) * (l - m - 1) / (2 * l + 1) / h) * P l (m + 2) j) /
      Real.sqrt (((l : ℝ) + m + 4) * (l + m + 3) / (2 * l + 5) / h)
  else P l' m' j

/-- loop over the even orders from 2 (fourier_legendre.py:179-195) -/
noncomputable def evenOrders (lmax : ℕ) (me mo : List ℕ) (P : A3) (m : ℕ) : A3 :=
  let P := (arange2 m lmax).foldl (relate 1 me m) P
  (arange2 (m + 1) (lmax - 1)).foldl (relate 1 mo m) P

/-- loop over the odd orders (fourier_legendre.py:198-213) -/
noncomputable def oddOrders (lmax : ℕ) (me mo : List ℕ) (P : A3) (m : ℕ) : A3 :=
  let P := (arange2 (m + 1) (lmax - 1)).foldl (relate 1 me m) P
  (arange2 m (lmax - 1)).foldl (relate 1 mo m) P

/-- `fourier_legendre(lmax, mmax)` (fourier_legendre.py:34-216).  `none` where the code raises:
`lmax` odd (`plm[:,:,lmax+1]`), `lmax < 4` (`plm[:,:,3]` or `plm[:,:,2]` out of bounds), `mmax < 4`
(`squeeze` drops the only column and the dot product fails; for `mmax < 2` the odd norms are zero
and the rows are NaN), `mmax > lmax + 1` (columns out of bounds). -/
noncomputable def fourierLegendre (lmax mmax : ℕ) : Option A3 :=
  if lmax % 2 = 0 ∧ 4 ≤ lmax ∧ 4 ≤ mmax ∧ mmax ≤ lmax + 1 then
    let me := arange2 0 (mmax + 1)
    let mo := arange2 1 mmax
    let P := base lmax mmax
    let P := (List.range' 0 (lmax - 1)).foldl (relate 2 me 0) P
    let P := (List.range' 1 (lmax - 2)).foldl (relate 2 mo 0) P
    let P := (arange2 2 lmax).foldl (evenOrders lmax me mo) P
    some ((arange2 1 (lmax - 1)).foldl (oddOrders lmax me mo) P)
  else none

end Verif.Fourier
