import Verif.Harmonics.Model
import Mathlib.Data.Fin.VecNotation
import Mathlib.Logic.Equiv.Basic
import Mathlib.Algebra.Order.Field.Rat
import Mathlib.Order.Lattice
import Mathlib.Data.List.MinMax

/-!
# Model of the `spatial` class (`gravity_toolkit/spatial.py`)

A grid value is `none` for NaN or `some x` with `x` in a field `K` (exact arithmetic, no
infinities).  Arrays are total functions of a triple of indices `(row, column, date)`; only the
indices below `shape` exist.  A two-dimensional object has one date (`shape 2 = 1`) and
`ndim3 = false`.  `fill = none` is Python `None`.
-/
namespace Verif.Spatial
open Verif.Harmonics (Err)
open Verif.Time

/-- NaN or a number -/
abbrev Val (K : Type) := Option K

/-- indices (row, column, date) -/
abbrev Idx := Fin 3 → ℕ

variable {K : Type} [Field K] [DecidableEq K]

/-- `==` of numpy: false if one side is NaN -/
def veq (a b : Val K) : Bool :=
  match a, b with
  | some x, some y => x = y
  | _, _ => false

/-- `np.isnan` -/
def isnan (a : Val K) : Bool := a.isNone

/-- arithmetic propagates NaN -/
def vmap2 (op : K → K → K) (a b : Val K) : Val K :=
  match a, b with
  | some x, some y => some (op x y)
  | _, _ => none

/-- a `spatial` object (spatial.py:122-136); the attribute `error` may be absent -/
structure Sp (K : Type) where
  shape : Fin 3 → ℕ
  ndim3 : Bool
  data : Idx → Val K
  mask : Idx → Bool
  error : Option (Idx → Val K)
  lat : List ℚ
  lon : List ℚ
  time : List ℚ
  month : List ℤ
  fill : Option (Val K)

/-- the index lies in the arrays -/
def Sp.In (o : Sp K) (i : Idx) : Prop := ∀ k, i k < o.shape k

/-- `arr[mask] = fill_value` -/
def fillIn (mask : Idx → Bool) (f : Val K) (arr : Idx → Val K) : Idx → Val K :=
  fun i => if mask i then f else arr i

/-- `update_mask` (spatial.py:1170-1180) -/
def updateMask (o : Sp K) : Sp K :=
  match o.fill with
  | none => o
  | some f =>
    let mask : Idx → Bool := fun i => o.mask i || veq (o.data i) f || isnan (o.data i)
    { o with mask := mask, data := fillIn mask f o.data, error := o.error.map (fillIn mask f) }

/-- `replace_masked` (spatial.py:1650-1658) -/
def replaceMasked (o : Sp K) : Sp K :=
  match o.fill with
  | none => o
  | some f => { o with data := fillIn o.mask f o.data, error := o.error.map (fillIn o.mask f) }

/-- `copy` (spatial.py:1182-1202) -/
def copy (o : Sp K) : Sp K := replaceMasked o

/-- `replace_invalid(fill_value, mask)` (spatial.py:1621-1648); `extra` is the additional mask
after broadcasting (`none`: not given) -/
def replaceInvalid (o : Sp K) (f : Val K) (extra : Option (Idx → Bool)) : Sp K :=
  let o1 := updateMask o
  let mask : Idx → Bool := match extra with
    | none => o1.mask
    | some e => fun i => o1.mask i || e i
  { o1 with mask := mask, fill := some f, data := fillIn mask f o1.data
            error := o1.error.map (fillIn mask f) }

/-- `offset` (spatial.py:1399-1432) and `scale` (spatial.py:1434-1467) with a number, or with an
array matching the object or its two horizontal dimensions: `v` gives the operand of each cell.
The masks and errors are those of the copy. -/
def pointwise (op : K → K → K) (o : Sp K) (v : Idx → Val K) : Sp K :=
  let temp := copy o
  updateMask { temp with data := fun i => vmap2 op (o.data i) (v i) }

/-- `offset` -/
def offset (o : Sp K) (v : Idx → Val K) : Sp K := pointwise (· + ·) o v
/-- `scale` -/
def scale (o : Sp K) (v : Idx → Val K) : Sp K := pointwise (fun x y => y * x) o v

/-- index reversed along axis `k` -/
def rev (shape : Fin 3 → ℕ) (k : Fin 3) (i : Idx) : Idx :=
  Function.update i k (shape k - 1 - i k)

/-- `flip` (spatial.py:1503-1529) along an existing axis -/
def flip (o : Sp K) (k : Fin 3) : Sp K :=
  let temp := copy o
  updateMask { temp with
    lat := if k = 0 then temp.lat.reverse else temp.lat
    lon := if k = 1 then temp.lon.reverse else temp.lon
    time := if k = 2 then temp.time.reverse else temp.time
    data := fun i => o.data (rev o.shape k i)
    mask := fun i => o.mask (rev o.shape k i)
    error := o.error.map fun e i => e (rev o.shape k i) }

/-- `transpose(axes)` (spatial.py:1531-1550): `np.transpose` puts axis `axes[k]` of the input at
position `k`. Latitudes and longitudes are not exchanged. -/
def transpose (o : Sp K) (axes : Equiv.Perm (Fin 3)) : Sp K :=
  let temp := copy o
  updateMask { temp with
    shape := fun k => o.shape (axes k)
    data := fun i => o.data fun k => i (axes.symm k)
    mask := fun i => o.mask fun k => i (axes.symm k)
    error := o.error.map fun e i => e fun k => i (axes.symm k) }

/-- `power` (spatial.py:1574-1585), natural number exponents: the mask is not updated -/
def power (o : Sp K) (n : ℕ) : Sp K :=
  { copy o with data := fun i => (o.data i).map (· ^ n) }

/-! ## temporal statistics -/

/-- index with the date replaced -/
def atDate (i : Idx) (t : ℕ) : Idx := Function.update i 2 t

/-- reduce the values of a cell over the dates `ts`: NaN if any is NaN -/
def reduceCell (red : List K → Val K) (arr : Idx → Val K) (ts : List ℕ) (i : Idx) : Val K :=
  match (ts.map fun t => arr (atDate i t)).mapM id with
  | some xs => red xs
  | none => none

/-- `np.mean` of a list of numbers; NaN for the empty list -/
def meanOf (xs : List K) : Val K := if xs = [] then none else some (xs.sum / xs.length)

/-- `np.any(self.mask[:,:,ts],axis=2)` -/
def anyMask (mask : Idx → Bool) (ts : List ℕ) (i : Idx) : Bool := ts.any fun t => mask (atDate i t)

/-- the object built by `mean`, `sum`, `max`, `min` before `update_mask`
(spatial.py:1480-1490, 1563-1571, 1592-1600, 1609-1617) -/
def reduced (o : Sp K) (red : List K → Val K) (ts : List ℕ) : Sp K :=
  { shape := Function.update o.shape 2 1, ndim3 := false
    data := reduceCell red o.data ts, mask := anyMask o.mask ts, error := none
    lat := o.lat, lon := o.lon, time := [], month := [], fill := o.fill }

/-- `mean(indices)` (spatial.py:1469-1501), the returned field; its time is not modelled -/
def mean (o : Sp K) (ts : List ℕ) : Sp K :=
  updateMask (reduced o meanOf ts)

/-- `mean(apply=True)`: the object afterwards (spatial.py:1495-1497). The mean is removed before
the mask of the mean field is updated, for the dates of `self.time`. -/
def removeMean (o : Sp K) (ts : List ℕ) : Sp K :=
  let temp := reduced o meanOf ts
  { o with data := fun i => if i 2 < o.time.length then
      vmap2 (· - ·) (o.data i) (temp.data (atDate i 0)) else o.data i }

/-- `sum(power)` (spatial.py:1552-1572) -/
def sum (o : Sp K) (p : ℕ) : Sp K :=
  updateMask (reduced o (fun xs => some (xs.map (· ^ p)).sum) (List.range (o.shape 2)))

/-- `max` (spatial.py:1587-1602); an object without dates, for which
`np.max` raises, gives NaN -/
def maximum [LinearOrder K] (o : Sp K) : Sp K :=
  updateMask (reduced o (fun xs => xs.max?) (List.range (o.shape 2)))

/-- `min` (spatial.py:1604-1619) -/
def minimum [LinearOrder K] (o : Sp K) : Sp K :=
  updateMask (reduced o (fun xs => xs.min?) (List.range (o.shape 2)))

/-! ## selection of dates -/

/-- the dates `is` of an object in this order, before `update_mask`; positions beyond `is` are the
zeros of the allocation -/
def takeDates (o : Sp K) (n : ℕ) (is : List ℕ) : Sp K :=
  { o with
    shape := Function.update o.shape 2 n
    data := fun i => match is[i 2]? with | some j => o.data (atDate i j) | none => some 0
    mask := fun i => match is[i 2]? with | some j => o.mask (atDate i j) | none => false
    error := o.error.map fun e i => match is[i 2]? with | some j => e (atDate i j) | none => some 0
    time := (List.range n).map fun t =>
      match is[t]? with | some i => o.time.getD i 0 | none => 0
    month := (List.range n).map fun t =>
      match is[t]? with | some i => o.month.getD i 0 | none => 0 }

/-- `subset` (spatial.py:1344-1397); the final `squeeze` updates the mask. Squeezing of a grid
with a single row or column is not modelled. -/
def subset (o : Sp K) (months : List ℤ) : Except Err (Sp K) :=
  let n := months.length
  let check := (months.filter fun m => m ∉ o.month).dedup
  if check ≠ [] then .error (.ioError check)
  else
    let is := (List.range o.month.length).filter fun i => o.month.getD i 0 ∈ months
    if n < is.length then .error .indexError
    else .ok (updateMask { takeDates o n is with ndim3 := n ≠ 1 })

/-- `index` (spatial.py:1308-1342) -/
def index (o : Sp K) (j : ℕ) : Except Err (Sp K) :=
  if o.ndim3 ∧ j < o.shape 2 ∧ j < o.time.length ∧ j < o.month.length then
    .ok (updateMask { takeDates o 1 [j] with ndim3 := false })
  else .error .indexError

/-- `from_list` (spatial.py:597-666) of two-dimensional objects with dates; `p` is `list_sort`.
All objects must have the shape of the first. -/
def fromList (objs : List (Sp K)) (p : List ℕ) : Except Err (Sp K) :=
  match objs with
  | [] => .error .indexError
  | o0 :: _ =>
    if objs.all fun o => o.shape 0 = o0.shape 0 && o.shape 1 = o0.shape 1 then
      .ok (updateMask
        { shape := Function.update o0.shape 2 objs.length, ndim3 := true
          data := fun i => match (p[i 2]?).bind (objs[·]?) with
            | some o => o.data (atDate i 0) | none => some 0
          mask := fun i => match (p[i 2]?).bind (objs[·]?) with
            | some o => o.mask (atDate i 0) | none => false
          error := o0.error.map fun _ i => match (p[i 2]?).bind (objs[·]?) with
            | some o => (match o.error with | some e => e (atDate i 0) | none => some 0)
            | none => some 0
          lat := o0.lat, lon := o0.lon
          time := p.map fun i => ((objs[i]?).bind (·.time.head?)).getD 0
          month := adjustMonths (p.map fun i => ((objs[i]?).bind (·.month.head?)).getD 0)
          fill := o0.fill })
    else .error .valueError

/-! ## extend_matrix -/

/-- column of the original for column `j` of the extension (spatial.py:1276-1286) -/
def wrapCol (nx j : ℕ) : ℕ := if j = 0 then nx - 1 else if j = nx + 1 then 0 else j - 1

/-- `extend_matrix` (spatial.py:1248-1289). The last longitude uses `spacing[1]`, the latitude
step. -/
def extendMatrix (o : Sp K) : Sp K :=
  let temp := copy o
  let nx := o.shape 1
  let dlat := |o.lat.getD 1 0 - o.lat.getD 0 0|
  let dlon := |o.lon.getD 1 0 - o.lon.getD 0 0|
  let w (i : Idx) : Idx := Function.update i 1 (wrapCol nx (i 1))
  updateMask { temp with
    shape := Function.update o.shape 1 (nx + 2)
    lon := [o.lon.getD 0 0 - dlon] ++ o.lon ++ [o.lon.getD (o.lon.length - 1) 0 + dlat]
    data := fun i => o.data (w i)
    mask := fun i => o.mask (w i)
    error := o.error.map fun e i => e (w i) }

end Verif.Spatial
