import Mathlib.LinearAlgebra.Matrix.NonsingularInverse
import Mathlib.Analysis.SpecialFunctions.Exp

/-!
# Model of `destripe_harmonics.py` (Swenson and Wahr decorrelation filter)

Exact real arithmetic.  The cosine and the sine coefficients go through identical statements, so
one column operator `destripeColumn` serves both.
-/
namespace Verif.Destripe

/-- `np.around` of a real: nearest integer, ties to even (destripe_harmonics.py:121-123) -/
noncomputable def around (x : ℝ) : ℤ :=
  if x - ⌊x⌋ < 1 / 2 then ⌊x⌋
  else if 1 / 2 < x - ⌊x⌋ then ⌊x⌋ + 1
  else if ⌊x⌋ % 2 = 0 then ⌊x⌋ else ⌊x⌋ + 1

/-- `nsmooth` of an order (destripe_harmonics.py:119-130): `15 exp(-m/10)` rounded (`ROUND`) or
truncated, at least 2.  `np.int64` truncates; the argument is positive, so that is the floor. -/
noncomputable def nsmooth (ROUND : Bool) (m : ℕ) : ℕ :=
  let s := Real.exp (-(m : ℝ) / 10) * 15
  let n : ℤ := if ROUND then around s else ⌊s⌋
  if n < 2 then 2 else n.toNat

/-- the window offsets `lll = arange(2 n + 1) - n` (destripe_harmonics.py:133) -/
def offset (i : ℕ) (n : ℕ) : ℝ := (i : ℝ) - n

/-- `rmat` accumulated over the window (destripe_harmonics.py:132-149) -/
noncomputable def rmat (n : ℕ) : Matrix (Fin 3) (Fin 3) ℝ :=
  (List.range (2 * n + 1)).foldl (fun r i => r +
    !![1, offset i n, offset i n ^ 2;
       offset i n, offset i n ^ 2, offset i n ^ 3;
       offset i n ^ 2, offset i n ^ 3, offset i n ^ 4]) 0

/-- `rhsc` for the window centred at index `l` (destripe_harmonics.py:189-197); the loop variable
`ll` from `-n` to `n` is `i - n` for `i` from 0 to `2 n` -/
noncomputable def rhs (n : ℕ) (y : ℕ → ℝ) (l : ℕ) : Fin 3 → ℝ :=
  (List.range (2 * n + 1)).foldl (fun r i => r +
    ![y (l + i - n), y (l + i - n) * offset i n, y (l + i - n) * offset i n ^ 2]) 0

/-- `np.linalg.lstsq(rmat, rhsc)` (destripe_harmonics.py:199-202).  Simplification: the least-squares
solution of a square system is `rmat⁻¹ rhs`; `rmat_unit` shows that the matrix is regular. -/
noncomputable def beta (n : ℕ) (y : ℕ → ℝ) (l : ℕ) : Fin 3 → ℝ := (rmat n)⁻¹.mulVec (rhs n y l)

/-- write one cell of an array -/
def put (a : ℕ → ℝ) (i : ℕ) (v : ℝ) : ℕ → ℝ := fun j => if j = i then v else a j

/-- body of the loop over window centres (destripe_harmonics.py:188-223), on the array of smoothed
values indexed by position in the list of degrees: the centre, then the first half window when this is
the first centre, then the last half window when this is the last one. `last` is `ieven` or `iodd`. -/
noncomputable def centreStep (n last : ℕ) (y : ℕ → ℝ) (a : ℕ → ℝ) (l : ℕ) : ℕ → ℝ :=
  let b := beta n y l
  let a := put a l (b 0)
  let a := if l = n then
      (List.range n).foldl (fun a i => put a (l + i - n) (b 0 + b 1 * offset i n + b 2 * offset i n ^ 2)) a
    else a
  if l + n = last then
      (List.range n).foldl (fun a i => put a (l + (i + 1)) (b 0 + b 1 * ((i + 1 : ℕ) : ℝ) + b 2 * ((i + 1 : ℕ) : ℝ) ^ 2)) a
    else a

/-- smoothed values of one list of `num` coefficients (destripe_harmonics.py:170-223 even,
225-277 odd) -/
noncomputable def smoothSeq (n num : ℕ) (NARROW : Bool) (y : ℕ → ℝ) : ℕ → ℝ :=
  if num < 2 * n + 1 then
    fun i => if i < num then (if NARROW then 0 else y i) else 0
  else
    (List.range' n (num - 2 * n)).foldl (centreStep n (num - 1) y) (fun _ => 0)

/-- the degrees `m..LMAX` of one parity (`leven`/`lodd`, destripe_harmonics.py:151-168).
Simplification: the two index counters are the lengths of these lists. -/
def degs (m LMAX par : ℕ) : List ℕ := (List.range' m (LMAX + 1 - m)).filter fun l => l % 2 = par

/-- the smoothed coefficient `clmsm[l,m]` (destripe_harmonics.py:151-277) -/
noncomputable def smoothed (ROUND NARROW : Bool) (LMAX : ℕ) (c : ℕ → ℕ → ℝ) (l m : ℕ) : ℝ :=
  let d := degs m LMAX (l % 2)
  smoothSeq (nsmooth ROUND m) d.length NARROW (fun i => c (d.getD i 0) m) (d.idxOf l)

/-- the subtraction (destripe_harmonics.py:279-284) on a copy of the input -/
noncomputable def destripeColumn (ROUND NARROW : Bool) (LMAX MMAX : ℕ) (c : ℕ → ℕ → ℝ) : ℕ → ℕ → ℝ := fun l m =>
  if m ≤ MMAX ∧ m ≤ l ∧ l ≤ LMAX then
    if 5 ≤ m then c l m - smoothed ROUND NARROW LMAX c l m else c l m
  else c l m

/-- a numpy matrix of coefficients with its shape -/
structure Arr where
  rows : ℕ
  cols : ℕ
  val : ℕ → ℕ → ℝ

/-- `destripe_harmonics(clm1, slm1, LMIN, LMAX, MMAX, ROUND, NARROW)` (destripe_harmonics.py:61-286).
`LMIN` is not used by the code.  `none`: the `ValueError` for a single row and the `IndexError`s for
arrays that do not hold the requested degrees and orders or for `LMAX = 0`. -/
noncomputable def destripe (c s : Arr) (LMAX : ℕ) (MMAX : Option ℕ) (ROUND NARROW : Bool) : Option (Arr × Arr) :=
  if c.rows = 1 ∨ s.rows = 1 then none
  else
    let M := MMAX.getD LMAX
    if LMAX = 0 ∨ c.rows < LMAX + 1 ∨ s.rows < LMAX + 1 ∨ c.cols < min M LMAX + 1 ∨ s.cols < min M LMAX + 1 then none
    else some (⟨c.rows, c.cols, destripeColumn ROUND NARROW LMAX M c.val⟩,
      ⟨s.rows, s.cols, destripeColumn ROUND NARROW LMAX M s.val⟩)

end Verif.Destripe
