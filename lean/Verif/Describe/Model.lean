import Mathlib.Algebra.Order.Field.Rat
import Mathlib.Algebra.Order.Group.Unbundled.Abs
import Mathlib.Data.List.MinMax

/-!
# Model of the text, length, truth value and bounds of the container classes, and of spatial.from_dict

Python's rules for the truth value, iteration and length of `None`, numbers, lists and numpy arrays are modelled; an empty array
counts as false (numpy before 2.2 warns, later versions raise).  Numbers in the texts are written by the given functions.
-/
namespace Verif.Describe

inductive Err where
  | value | type | attribute | index
deriving DecidableEq, Repr

/-- the attribute `month`: `None`, a number or an array without dimensions, an array with one dimension, or a list -/
inductive Months where
  | none
  | scalar (m : ℤ)
  | arr (l : List ℤ)
  | list (l : List ℤ)
deriving DecidableEq

/-- truth value (`if self.month:`) -/
def truth : Months → Except Err Bool
  | .none => .ok false
  | .scalar m => .ok (decide (m ≠ 0))
  | .arr [] => .ok false
  | .arr [m] => .ok (decide (m ≠ 0))
  | .arr (_ :: _ :: _) => .error .value
  | .list l => .ok (decide (l ≠ []))

/-- `min(self.month)` and `max(self.month)` -/
def minMax : Months → Except Err (ℤ × ℤ)
  | .none => .error .type
  | .scalar _ => .error .type
  | .arr l | .list l =>
    match l.min?, l.max? with
    | some a, some b => .ok (a, b)
    | _, _ => .error .value

/-- the lines on the months (harmonics.py:1891-1893, spatial.py:1705-1707, geocenter.py:1217-1219) -/
def monthLines (show_ : ℤ → String) (m : Months) : Except Err (List String) := do
  if ← truth m then
    let (a, b) ← minMax m
    return ["    start_month: " ++ show_ a, "    end_month: " ++ show_ b]
  else return []

/-- `geocenter.__str__` (geocenter.py:1213-1220), as lines -/
def geocenterStr (show_ : ℤ → String) (m : Months) : Except Err (List String) := do
  return "gravity_toolkit.geocenter" :: (← monthLines show_ m)

/-- `harmonics.__str__` (harmonics.py:1884-1894), as lines; `None` as degree or order is not modelled -/
def harmonicsStr (show_ : ℤ → String) (lmax mmax : ℕ) (m : Months) : Except Err (List String) := do
  let order := if mmax ≠ 0 ∧ mmax ≠ lmax then ["    max_order: " ++ show_ mmax] else []
  return ["gravity_toolkit.harmonics", "    max_degree: " ++ show_ lmax] ++ order ++ (← monthLines show_ m)

/-- `extent` (spatial.py:1674-1684): bounds of longitudes and latitudes; numpy raises for empty arrays -/
def extent (lon lat : List ℚ) : Except Err (List ℚ) :=
  match lon.min?, lon.max?, lat.min?, lat.max? with
  | some a, some b, some c, some d => .ok [a, b, c, d]
  | _, _, _, _ => .error .value

/-- `spacing` (spatial.py:1666-1672): steps in longitude and latitude between the first two points -/
def spacing (lon lat : List ℚ) : Except Err (ℚ × ℚ) :=
  match lat, lon with
  | y0 :: y1 :: _, x0 :: x1 :: _ => .ok (|x1 - x0|, |y1 - y0|)
  | _, _ => .error .index

/-- `spatial.__str__` (spatial.py:1697-1708), as lines -/
def spatialStr (show_ : ℤ → String) (showQ : ℚ → String) (lon lat : List ℚ) (shape : List ℕ) (m : Months) : Except Err (List String) := do
  let e ← extent lon lat
  return ["gravity_toolkit.spatial", "    extent: " ++ ", ".intercalate (e.map showQ),
    "    shape: " ++ ", ".intercalate (shape.map fun n => show_ n)] ++ (← monthLines show_ m)

/-- `__len__` (harmonics.py:1896-1899, spatial.py:1710-1713, geocenter.py:1222-1225) -/
def len : Months → Except Err ℕ
  | .none => .ok 0
  | .scalar m => if m ≠ 0 then .error .type else .ok 0
  | .arr l | .list l => .ok (if l.any fun m => decide (m ≠ 0) then l.length else 0)

/-- `bool(object)`: the classes have a length and no truth value of their own -/
def objTruth (m : Months) : Except Err Bool := do return decide ((← len m) ≠ 0)

/-- `harmonics.squeeze(update_dimensions)` (harmonics.py:1402-1425) after the arrays are squeezed: without updating the dimensions the
attributes `ndim` and `shape` are assigned, which are properties without setters (harmonics.py:1865-1875) -/
def squeezeEnd (updateDimensions : Bool) : Except Err Unit := if updateDimensions then .ok () else .error .attribute

/-! ## from_dict -/

/-- an entry of a dictionary: an array (with the method `copy`), or something without -/
inductive Entry (α : Type) where
  | array (a : List α)
  | other

/-- the arrays of a `spatial` object (flattened) -/
structure Obj where
  lon : Option (List ℚ) := .none
  lat : Option (List ℚ) := .none
  time : Option (List ℚ) := .none
  month : Option (List ℤ) := .none
  data : Option (List (Option ℚ)) := .none
  error : Option (List (Option ℚ)) := .none
  mask : Option (List Bool) := .none
  fill : Option (Option ℚ) := .none
  root : Option String := .none
deriving DecidableEq

/-- a dictionary; the values of other keys are not modelled -/
structure Dict where
  lon : Option (Entry ℚ) := .none
  lat : Option (Entry ℚ) := .none
  time : Option (Entry ℚ) := .none
  month : Option (Entry ℤ) := .none
  data : Option (Entry (Option ℚ)) := .none
  error : Option (Entry (Option ℚ)) := .none
  mask : Option (Entry Bool) := .none
  attributes : Option String := .none

/-- `setattr(self, key, d[key].copy())`, passing over missing keys and values without `copy` (spatial.py:714-718) -/
def setKey {α : Type} (old : Option (List α)) : Option (Entry α) → Option (List α)
  | some (.array a) => some a
  | _ => old

/-- numpy's `==` with a number, NaN is equal to nothing -/
def eqFill (f x : Option ℚ) : Bool :=
  match f, x with
  | some a, some b => decide (b = a)
  | _, _ => false

/-- `spatial.from_dict` (spatial.py:704-725) with `update_mask` (spatial.py:1170-1180).  Without data the mask has no dimensions, and
with a fill value the test for NaN raises.  Errors of another size than the data cannot be indexed with the mask -/
def fromDict (o : Obj) (d : Dict) : Except Err Obj :=
  let o := { o with
    lon := setKey o.lon d.lon, lat := setKey o.lat d.lat, time := setKey o.time d.time, month := setKey o.month d.month
    data := setKey o.data d.data, error := setKey o.error d.error, root := d.attributes }
  match o.data, o.fill with
  | .none, .none => .ok { o with mask := some [] }
  | .none, some _ => .error .type
  | some x, .none => .ok { o with mask := some (x.map fun _ => false) }
  | some x, some f =>
    let mask := x.map fun v => eqFill f v || v.isNone
    let fillIn := fun (e : List (Option ℚ)) => List.zipWith (fun v b => if b then f else v) e mask
    match o.error with
    | .none => .ok { o with mask := some mask, data := some (fillIn x) }
    | some e =>
      if e.length = x.length then .ok { o with mask := some mask, data := some (fillIn x), error := some (fillIn e) }
      else .error .index

end Verif.Describe
