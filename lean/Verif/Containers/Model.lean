/-!
# Model of the iteration protocol of `harmonics`, `spatial` and `geocenter`

The three classes are their own iterators: `__iter__` sets a position stored in the object and returns the object itself,
`__next__` returns the field at the position. `D` is the type of one field (a matrix of coefficients, a grid, a number),
`T` of a date.
-/
namespace Verif.Containers

/-- An attribute of an object: not set (`None`), a single field (without a time dimension), or a series of fields. -/
inductive Arr (D : Type) where
  | absent
  | single (d : D)
  | series (l : List D)
deriving DecidableEq

/-- The exceptions. -/
inductive Err where
  | index | type | value
deriving DecidableEq

/-- `x[...,i]`: `None` cannot be indexed (`TypeError`); a single field has one dimension less and a series may be too short
(`IndexError`). -/
def Arr.at {D : Type} (a : Arr D) (i : Nat) : Except Err D :=
  match a with
  | .absent => .error .type
  | .single _ => .error .index
  | .series l => match l[i]? with | some d => .ok d | none => .error .index

/-- An object: fields, a second field (sine coefficients, mask, further degree one coefficients), dates and month numbers. -/
structure Obj (D T : Type) where
  data : Arr D
  other : Arr D
  time : Arr T
  month : Arr Int

/-- One month of an object. -/
structure Item (D T : Type) where
  data : D
  other : D
  time : T
  month : Int
deriving DecidableEq

/-- What a call of `__next__` does. -/
inductive Next (A : Type) where
  | item (a : A)
  | stop
  | raise (e : Err)
deriving DecidableEq

/-- `harmonics.__next__` (harmonics.py:1907-1930) and `spatial.__next__` (spatial.py:1721-1757): an `IndexError` of the fields
ends the loop, that of the dates is raised, as is the `TypeError` of anything that is `None`. The grid dimensions, the error
field and the names of the files are not modelled. -/
def nextField {D T : Type} (o : Obj D T) (i : Nat) : Next (Item D T) :=
  match o.data.at i with
  | .error .index => .stop
  | .error e => .raise e
  | .ok d =>
    match o.other.at i with
    | .error .index => .stop
    | .error e => .raise e
    | .ok s =>
      match o.time.at i with
      | .error e => .raise e
      | .ok t =>
        match o.month.at i with
        | .error e => .raise e
        | .ok m => .item ⟨d, s, t, m⟩

/-- `geocenter.__next__` (geocenter.py:1233-1247): the dates are inside of the `try`. Two of the three coefficients are
modelled as one. -/
def nextGeo {D T : Type} (o : Obj D T) (i : Nat) : Next (Item D T) :=
  match o.time.at i with
  | .error .index => .stop
  | .error e => .raise e
  | .ok t =>
    match o.month.at i with
    | .error .index => .stop
    | .error e => .raise e
    | .ok m =>
      match o.data.at i with
      | .error .index => .stop
      | .error e => .raise e
      | .ok d =>
        match o.other.at i with
        | .error .index => .stop
        | .error e => .raise e
        | .ok s => .item ⟨d, s, t, m⟩

/-! ## Loops -/

/-- How a loop ends: after the last item, with an exception, or not within the given number of rounds. -/
inductive End where
  | done | raised (e : Err) | running
deriving DecidableEq

/-- The rounds of `for x in obj: body` after `__iter__`: the body gets the item and the position of the object (which the
object has already moved on) and gives the outputs and the position it leaves behind. `nx` is the `__next__` of the object.
The first number bounds the rounds. -/
def rounds {A B : Type} (nx : Nat → Next A) (body : A → Nat → List B × Nat) : Nat → Nat → List B × Nat × End
  | 0, pos => ([], pos, .running)
  | n + 1, pos =>
    match nx pos with
    | .stop => ([], pos, .done)
    | .raise e => ([], pos, .raised e)
    | .item a =>
      let r := body a (pos + 1)
      let s := rounds nx body n r.2
      (r.1 ++ s.1, s.2)

/-- `for x in obj: body` (harmonics.py:1901-1905, spatial.py:1715-1719, geocenter.py:1227-1231): starts at position 0,
whatever the position was. -/
def forLoop {A B : Type} (nx : Nat → Next A) (body : A → Nat → List B × Nat) (fuel : Nat) : List B × Nat × End :=
  rounds nx body fuel 0

/-- A body that does not use the object: its output, and the position stays. -/
def quiet {A B : Type} (f : A → List B) : A → Nat → List B × Nat := fun a p => (f a, p)

/-- A body with an inner loop over the same object: `for y in obj: out (x, y)`. -/
def inner {A : Type} (nx : Nat → Next A) (fuel : Nat) : A → Nat → List (A × A) × Nat := fun a _ =>
  let r := forLoop nx (quiet fun b => [(a, b)]) fuel
  (r.1, r.2.1)

/-- A body with an inner loop over a copy of the object, which has its own position. -/
def innerCopy {A : Type} (nx : Nat → Next A) (fuel : Nat) : A → Nat → List (A × A) × Nat := fun a p =>
  ((forLoop nx (quiet fun b => [(a, b)]) fuel).1, p)

/-- A body that looks at the first item of the object: `first = next(iter(obj))`. -/
def peek {A : Type} (nx : Nat → Next A) : A → Nat → List (A × A) × Nat := fun a _ =>
  match nx 0 with
  | .item b => ([(a, b)], 1)
  | _ => ([], 0)

/-- `zip(obj, obj)`: both arguments are the object itself, so that the items alternate. -/
def zipSelf {A : Type} (nx : Nat → Next A) : Nat → Nat → List (A × A)
  | 0, _ => []
  | n + 1, pos =>
    match nx pos with
    | .item a =>
      match nx (pos + 1) with
      | .item b => (a, b) :: zipSelf nx n (pos + 2)
      | _ => []
    | _ => []

/-! ## Length and text -/

/-- The month numbers of an object for `len` and `str`: `None`, a number, an array or a Python list. -/
inductive Month where
  | absent
  | scalar (m : Int)
  | array (l : List Int)
  | list (l : List Int)
deriving DecidableEq

/-- `len(self.month) if np.any(self.month) else 0` (harmonics.py:1896-1899, spatial.py:1710-1713, geocenter.py:1222-1225):
a number has no length. -/
def lenOf : Month → Except Err Nat
  | .absent => .ok 0
  | .scalar m => if m = 0 then .ok 0 else .error .type
  | .array l => .ok (if l.any (· ≠ 0) then l.length else 0)
  | .list l => .ok (if l.any (· ≠ 0) then l.length else 0)

/-- `min(l)`, `max(l)` of a list that is not empty -/
def minMax (l : List Int) : Option (Int × Int) :=
  match l with
  | [] => none
  | a :: t => some (t.foldl min a, t.foldl max a)

/-- The months shown by `str` (harmonics.py:1883-1894, spatial.py:1697-1708, geocenter.py:1213-1220), `none` if there is no
line for them: an array of more than one value has no truth value (`ValueError`), a number has no minimum (`TypeError`). An
empty array is taken as false (an error in the newest versions of numpy). -/
def monthsShown : Month → Except Err (Option (Int × Int))
  | .absent => .ok none
  | .scalar m => if m = 0 then .ok none else .error .type
  | .array [] => .ok none
  | .array [m] => if m = 0 then .ok none else .ok (some (m, m))
  | .array _ => .error .value
  | .list l => .ok (minMax l)

/-- `zeros_like` (harmonics.py:1361-1375, spatial.py:1204-1221) of the month numbers: they are set to zero like the
fields (`np.zeros_like` of `None` is the number zero). -/
def zerosMonth : Month → Month
  | .absent => .scalar 0
  | .scalar _ => .scalar 0
  | .array l => .array (l.map fun _ => 0)
  | .list l => .array (l.map fun _ => 0)

end Verif.Containers
