import Verif.Common.Loop
import Verif.Time.Model
import Mathlib.Algebra.Field.Rat
import Mathlib.Algebra.Order.Field.Rat
import Mathlib.Data.Rat.Cast.Defs

/-!
# Model of the `harmonics` class (`gravity_toolkit/harmonics.py`)

Coefficients live in a field `K` (double arithmetic is modelled as exact).
An object holds `clm` and `slm` as total functions of degree, order and date;
only the entries with `l ≤ lmax`, `m ≤ mmax`, `t < nt` exist in the numpy arrays.
`nt = none` is a two-dimensional (single date) object, whose entries are those with
third index 0.  `time` and `month` are lists (a scalar is a list of length one).
File names and attributes are not modelled.
-/
namespace Verif.Harmonics
open Verif.Time

/-- Python exceptions that the modelled methods can raise. -/
inductive Err
  | valueError | indexError | typeError | ioError (months : List ℤ)
deriving DecidableEq

/-- A `harmonics` object (harmonics.py:145-163). -/
structure Harm (K : Type) where
  lmax : ℕ
  mmax : ℕ
  nt : Option ℕ
  clm : ℕ → ℕ → ℕ → K
  slm : ℕ → ℕ → ℕ → K
  time : List ℚ
  month : List ℤ

/-- Consistency of an object: as many dates as fields. -/
def Harm.WF {K : Type} (h : Harm K) : Prop :=
  h.time.length = h.nt.getD 1 ∧ h.month.length = h.nt.getD 1

variable {K : Type} [Field K]

/-! ## arithmetic (harmonics.py:1206-1313) -/

/-- `l1` (harmonics.py:1218 and the same line of the other operations) -/
def bound1 (self temp : ℕ) : ℕ := if temp > self then self + 1 else temp + 1

/-- `self.clm[:l1,:m1] op= temp.clm[:l1,:m1]`, where field `t` of `self` meets field `τ t`
of `temp` and only the dates satisfying `on` are visited -/
def windowOp (op : K → K → K) (l1 m1 : ℕ) (τ : ℕ → ℕ) (on : ℕ → Bool)
    (a b : ℕ → ℕ → ℕ → K) : ℕ → ℕ → ℕ → K :=
  fun l m t => if l < l1 ∧ m < m1 ∧ on t then op (a l m t) (b l m (τ t)) else a l m t

/-- `add`, `subtract`, `multiply` (harmonics.py:1206-1282), which differ in `op` only.
* both two-dimensional: lines 1220-1222;
* temporal `self`, single `temp`: the loop over `enumerate(self.time)`, lines 1223-1226;
* both temporal: numpy broadcasting of the last axis, lines 1227-1229;
* single `self`, temporal `temp`: in-place broadcasting fails. -/
def windowed (op : K → K → K) (self temp : Harm K) : Except Err (Harm K) :=
  let l1 := bound1 self.lmax temp.lmax
  let m1 := bound1 self.mmax temp.mmax
  let upd (τ : ℕ → ℕ) (on : ℕ → Bool) : Harm K :=
    { self with clm := windowOp op l1 m1 τ on self.clm temp.clm
                slm := windowOp op l1 m1 τ on self.slm temp.slm }
  match self.nt, temp.nt with
  | none, none => .ok (upd id fun _ => true)
  | none, some _ => .error .valueError
  | some n, none =>
    if self.time.length ≤ n then .ok (upd (fun _ => 0) fun t => t < self.time.length)
    else .error .indexError
  | some n, some n' =>
    if n' = n then .ok (upd id fun _ => true)
    else if n' = 1 then .ok (upd (fun _ => 0) fun _ => true)
    else .error .valueError

/-- harmonics.py:1206 -/
def add : Harm K → Harm K → Except Err (Harm K) := windowed (· + ·)
/-- harmonics.py:1232 -/
def subtract : Harm K → Harm K → Except Err (Harm K) := windowed (· - ·)
/-- harmonics.py:1258 -/
def multiply : Harm K → Harm K → Except Err (Harm K) := windowed (· * ·)

/-- `clm[lc,mc] /= temp.clm[lc,mc]` with `lc,mc = np.tril_indices(l1, m=m1)`; for the sine
coefficients the order-zero indices are removed (harmonics.py:1298-1302) -/
def trilDiv (zonal : Bool) (l1 m1 : ℕ) (τ : ℕ → ℕ) (on : ℕ → Bool)
    (a b : ℕ → ℕ → ℕ → K) : ℕ → ℕ → ℕ → K :=
  fun l m t => if (l < l1 ∧ m < m1 ∧ m ≤ l ∧ (zonal ∨ m ≠ 0)) ∧ on t
    then a l m t / b l m (τ t) else a l m t

/-- `divide` (harmonics.py:1284-1313).  With two temporal operands fancy indexing gives
arrays of shape (number of indices, nt), broadcast along the date axis. -/
def divide (self temp : Harm K) : Except Err (Harm K) :=
  let l1 := bound1 self.lmax temp.lmax
  let m1 := bound1 self.mmax temp.mmax
  let upd (τ : ℕ → ℕ) (on : ℕ → Bool) : Harm K :=
    { self with clm := trilDiv true l1 m1 τ on self.clm temp.clm
                slm := trilDiv false l1 m1 τ on self.slm temp.slm }
  match self.nt, temp.nt with
  | none, none => .ok (upd id fun _ => true)
  | none, some _ => .error .valueError
  | some n, none =>
    if self.time.length ≤ n then .ok (upd (fun _ => 0) fun t => t < self.time.length)
    else .error .indexError
  | some n, some n' =>
    if n' = n then .ok (upd id fun _ => true)
    else if n' = 1 then .ok (upd (fun _ => 0) fun _ => true)
    else .error .valueError

/-! ## flatten and expand -/

/-- one row of a flattened object: degree, order, and the coefficients at all dates -/
structure Row (K : Type) where
  l : ℕ
  m : ℕ
  c : ℕ → K
  s : ℕ → K

/-- A flattened object. -/
structure Flat (K : Type) where
  lmax : ℕ
  mmax : ℕ
  nt : Option ℕ
  rows : List (Row K)
  time : List ℚ
  month : List ℤ

/-- `n_harm` (harmonics.py:1436-1437), Python integer arithmetic -/
def nHarm (lmax mmax : ℤ) : ℤ :=
  (lmax ^ 2 + 3 * lmax - (lmax - mmax) ^ 2 - (lmax - mmax)) / 2 + 1

/-- body of the flatten loop (harmonics.py:1461-1470): write row number `lm`, then
`lm += 1`; an index beyond the allocated rows is an `IndexError` -/
def flattenStep (h : Harm K) (st : Option (ℕ × List (Row K))) (p : ℕ × ℕ) :
    Option (ℕ × List (Row K)) :=
  st.bind fun (lm, rows) =>
    if lm < rows.length then
      some (lm + 1, rows.set lm ⟨p.1, p.2, h.clm p.1 p.2, h.slm p.1 p.2⟩)
    else none

/-- `flatten` (harmonics.py:1427-1474) -/
def flatten (h : Harm K) : Except Err (Flat K) :=
  let n := nHarm h.lmax h.mmax
  if n < 0 then .error .valueError
  else
    let rows0 : List (Row K) := List.replicate n.toNat ⟨0, 0, fun _ => 0, fun _ => 0⟩
    match (lmPairs h.lmax h.mmax).foldl (flattenStep h) (some (0, rows0)) with
    | some (_, rows) => .ok ⟨h.lmax, h.mmax, h.nt, rows, h.time, h.month⟩
    | none => .error .indexError

/-- `expand` (harmonics.py:1476-1519): rows written into zero matrices in order;
rows outside the matrices are an `IndexError` -/
def expand (f : Flat K) : Except Err (Harm K) :=
  if f.rows.all (fun r => r.l ≤ f.lmax && r.m ≤ f.mmax) then
    let c := rowLoop f.rows (fun r => (r.l, r.m)) Row.c (fun _ _ => (0 : K))
    let s := rowLoop f.rows (fun r => (r.l, r.m)) Row.s (fun _ _ => (0 : K))
    .ok { lmax := f.lmax, mmax := f.mmax, nt := f.nt, clm := fun l m => c (l, m),
          slm := fun l m => s (l, m), time := f.time, month := f.month }
  else .error .indexError

/-! ## index, subset, truncate -/

/-- `index` (harmonics.py:1521-1550) for a non-negative index of a temporal object -/
def index (h : Harm K) (i : ℕ) : Except Err (Harm K) :=
  match h.nt with
  | none => .error .indexError
  | some n =>
    match h.time[i]?, h.month[i]? with
    | some t, some g =>
      if i < n then
        .ok { lmax := h.lmax, mmax := h.mmax, nt := none, clm := fun l m _ => h.clm l m i,
              slm := fun l m _ => h.slm l m i, time := [t], month := [g] }
      else .error .indexError
    | _, _ => .error .indexError

/-- `squeeze` (harmonics.py:1402-1425): drops the date axis if it has length one -/
def squeeze (h : Harm K) : Harm K :=
  match h.nt with
  | some 1 => { h with nt := none }
  | _ => h

/-- `subset` (harmonics.py:1552-1595).  The output is allocated for as many dates as months
were requested; entry `t` is filled from the `t`-th date of the object whose month was
requested. -/
def subset (h : Harm K) (months : List ℤ) : Except Err (Harm K) :=
  let n := months.length
  let check := (months.filter fun m => m ∉ h.month).dedup
  if check ≠ [] then .error (.ioError check)
  else
    let is := (List.range h.month.length).filter fun i => h.month.getD i 0 ∈ months
    if n < is.length then .error .indexError
    else
      .ok (squeeze
        { lmax := h.lmax, mmax := h.mmax, nt := some n
          clm := fun l m t => match is[t]? with | some i => h.clm l m i | none => 0
          slm := fun l m t => match is[t]? with | some i => h.slm l m i | none => 0
          time := (List.range n).map fun t =>
            match is[t]? with | some i => h.time.getD i 0 | none => 0
          month := (List.range n).map fun t =>
            match is[t]? with | some i => h.month.getD i 0 | none => 0 })

/-- `truncate` (harmonics.py:1597-1637).  `mmax = some 0` is falsy in Python. -/
def truncate (h : Harm K) (lmax : Option ℕ) (lmin : ℕ := 0) (mmax : Option ℕ := none) : Harm K :=
  let L := lmax.getD h.lmax
  let mm := mmax.getD L
  let M := if mm ≠ 0 then mm else L
  let l1 := bound1 L h.lmax
  let m1 := bound1 M h.mmax
  { h with
    lmax := L
    mmax := M
    clm := fun l m t => if lmin ≤ l ∧ l < l1 ∧ m < m1 then h.clm l m t else 0
    slm := fun l m t => if lmin ≤ l ∧ l < l1 ∧ m < m1 then h.slm l m t else 0 }

/-! ## from_list -/

/-- `p` is a possible result of `np.argsort(times)`: a permutation of the indices putting the
times in order (the order of equal times is unspecified, the default sort is not stable) -/
def IsArgsort (times : List ℚ) (p : List ℕ) : Prop :=
  p.Perm (List.range times.length) ∧ p.Pairwise fun i j => times.getD i 0 ≤ times.getD j 0

/-- `from_list` (harmonics.py:622-680) with dates; `p` is `list_sort`. The objects are
two-dimensional; an empty list fails in `np.min`. -/
def fromList (objs : List (Harm K)) (p : List ℕ) : Except Err (Harm K) :=
  match (objs.map Harm.lmax).min?, (objs.map Harm.mmax).min? with
  | some L, some M =>
    .ok { lmax := L, mmax := M, nt := some objs.length
          clm := fun l m t => match (p[t]?).bind (objs[·]?) with
            | some o => o.clm l m 0 | none => 0
          slm := fun l m t => match (p[t]?).bind (objs[·]?) with
            | some o => o.slm l m 0 | none => 0
          time := p.map fun i => ((objs[i]?).bind (·.time.head?)).getD 0
          month := adjustMonths (p.map fun i => ((objs[i]?).bind (·.month.head?)).getD 0) }
  | _, _ => .error .valueError

/-! ## mean, scale, drift, convolve, power -/

/-- `np.mean` of the selected entries -/
def npMean (xs : List K) : K := xs.sum / xs.length

/-- body of the loop of `mean` for one coefficient array (harmonics.py:1660-1668): the mean of
the selected dates is stored and, if requested, subtracted at all dates -/
def meanStep (apply : Bool) (idx : List ℕ) (st : (ℕ × ℕ → K) × (ℕ × ℕ → ℕ → K)) (p : ℕ × ℕ) :
    (ℕ × ℕ → K) × (ℕ × ℕ → ℕ → K) :=
  let mc := Function.update st.1 p (npMean (idx.map fun t => st.2 p t))
  (mc, if apply then Function.update st.2 p (fun t => st.2 p t - mc p) else st.2)

/-- `mean` (harmonics.py:1639-1675): `idx` are the selected dates (all of them for
`Ellipsis`). Returns the mean field and the object afterwards.  The loop handles the cosine
and sine arrays together; they do not interact. -/
def mean (h : Harm K) (apply : Bool) (idx : List ℕ) : Harm K × Harm K :=
  let c := (lmPairs h.lmax h.mmax).foldl (meanStep apply idx)
    (fun _ => 0, fun p => h.clm p.1 p.2)
  let s := (lmPairs h.lmax h.mmax).foldl (meanStep apply idx)
    (fun _ => 0, fun p => h.slm p.1 p.2)
  ({ lmax := h.lmax, mmax := h.mmax, nt := none, clm := fun l m _ => c.1 (l, m)
     slm := fun l m _ => s.1 (l, m)
     time := [npMean (idx.map fun i => h.time.getD i 0)]
     -- the mean month is a float in the code, not modelled
     month := [] },
   { h with clm := fun l m => c.2 (l, m), slm := fun l m => s.2 (l, m) })

/-- `scale` by a number (harmonics.py:1696-1698) -/
def scale (h : Harm K) (v : K) : Harm K :=
  { h with clm := fun l m t => v * h.clm l m t, slm := fun l m t => v * h.slm l m t }

/-- `scale` by a vector (harmonics.py:1699-1708). On a temporal object `temp.clm` is still
`None`, assigning an element of it raises `TypeError`; on a single-date object the dates of
the result are those of the input, not adapted to the number of factors. -/
def scaleVec (h : Harm K) (v : List K) : Except Err (Harm K) :=
  match h.nt with
  | none => .ok { h with nt := some v.length
                         clm := fun l m t => v.getD t 0 * h.clm l m 0
                         slm := fun l m t => v.getD t 0 * h.slm l m 0 }
  | some _ => .error .typeError

/-- `power` (harmonics.py:1712-1734), natural number exponents -/
def power (h : Harm K) (n : ℕ) : Harm K :=
  { h with clm := fun l m t => h.clm l m t ^ n, slm := fun l m t => h.slm l m t ^ n }

/-- `drift` (harmonics.py:1736-1767) of a single-date rate field -/
def drift (h : Harm K) (ts : List ℚ) (epoch : ℚ := 2003.3) : Harm K :=
  { lmax := h.lmax, mmax := h.mmax, nt := some ts.length
    clm := fun l m i => h.clm l m 0 * ((ts.getD i 0 - epoch : ℚ) : K)
    slm := fun l m i => h.slm l m 0 * ((ts.getD i 0 - epoch : ℚ) : K)
    time := ts
    month := adjustMonths (ts.map fun t => calendarToGrace t) }

/-- `convolve` (harmonics.py:1769-1791); `var[l]` beyond the end of `var` is an
`IndexError`. For temporal objects the loop runs over `enumerate(self.time)`. -/
def convolve (h : Harm K) (var : List K) : Except Err (Harm K) :=
  if var.length < h.lmax + 1 ∧ (h.nt.isNone ∨ h.time ≠ []) then .error .indexError
  else
    let on (t : ℕ) : Prop := h.nt.isNone ∨ t < h.time.length
    .ok { h with
      clm := fun l m t => if l ≤ h.lmax ∧ on t then h.clm l m t * var.getD l 0 else h.clm l m t
      slm := fun l m t => if l ≤ h.lmax ∧ on t then h.slm l m t * var.getD l 0 else h.slm l m t }

/-! ## triangular layout -/

/-- `for m in range(-mmax,mmax+1): for l in range(|m|,lmax+1)` (harmonics.py:1170-1172) -/
def triPairs (lmax mmax : ℕ) : List (ℕ × ℤ) :=
  (List.range (2 * mmax + 1)).flatMap fun k : ℕ =>
    let m : ℤ := (k : ℤ) - mmax
    (List.range' m.natAbs (lmax + 1 - m.natAbs)).map fun l => (l, m)

/-- `to_masked_array` (harmonics.py:1157-1183): cell `(l, column)` holds `none` if masked.
Columns are integers here; `lmax + m` is never negative, see `triangle_columns`. -/
def toMaskedArray (h : Harm K) : ℕ × ℤ → Option (ℕ → K) :=
  rowLoop (triPairs h.lmax h.mmax) (fun p => (p.1, (h.lmax : ℤ) + p.2))
    (fun p => some (if p.2 < 0 then h.slm p.1 p.2.natAbs else h.clm p.1 p.2.natAbs))
    (fun _ => none)

/-! ## ascii files -/

/-- a line of an ascii file: degree, order, cosine, sine (numbers as printed) -/
structure Line (K : Type) where
  l : ℕ
  m : ℕ
  c : K
  s : K

/-- `to_ascii` (harmonics.py:750-779) of a single-date object; `fmt` is the rounding of a
coefficient by the output format -/
def toAscii (fmt : K → K) (h : Harm K) : List (Line K) :=
  (lmPairs h.lmax h.mmax).map fun p => ⟨p.1, p.2, fmt (h.clm p.1 p.2 0), fmt (h.slm p.1 p.2 0)⟩

/-- running maximum of `from_ascii` (harmonics.py:262-271) -/
def maxLoop (xs : List ℕ) : ℕ := xs.foldl (fun acc x => if x > acc then x else acc) 0

/-- `from_ascii` (harmonics.py:215-292) without dates, from the parsed lines -/
def fromAscii (lines : List (Line K)) : Harm K :=
  let c := rowLoop lines (fun r => (r.l, r.m)) (fun r => r.c) (fun _ => (0 : K))
  let s := rowLoop lines (fun r => (r.l, r.m)) (fun r => r.s) (fun _ => (0 : K))
  { lmax := maxLoop (lines.map Line.l), mmax := maxLoop (lines.map Line.m), nt := none
    clm := fun l m _ => c (l, m), slm := fun l m _ => s (l, m), time := [], month := [] }

/-! ## iteration -/

/-- calls of the iterator protocol -/
inductive IterCmd
  | iter
  | next
deriving DecidableEq

/-- `__iter__` (harmonics.py:1901-1905) resets the position, `__next__`
(harmonics.py:1907-1930) returns the field at the position and moves on, or raises
`StopIteration` (`none`) leaving the position. The position is stored in the object itself.
Objects are assumed consistent (as many dates as fields). -/
def iterStep (h : Harm K) (pos : ℕ) : IterCmd → ℕ × Option (Option (Harm K))
  | .iter => (0, none)
  | .next => match index h pos with
    | .ok f => (pos + 1, some (some f))
    | .error _ => (pos, some none)

/-- run a history of calls: final position and the outcomes of the `next` calls -/
def iterRun (h : Harm K) (pos : ℕ) : List IterCmd → ℕ × List (Option (Harm K))
  | [] => (pos, [])
  | c :: cs =>
    let r := iterStep h pos c
    let rest := iterRun h r.1 cs
    (rest.1, (match r.2 with | some o => [o] | none => []) ++ rest.2)

end Verif.Harmonics
