import Verif.Harmonics.Model

/-!
# Which arrays `harmonics` objects share (`gravity_toolkit/harmonics.py`)

`Verif.Harmonics.Model` treats objects as values.  Python objects hold references to numpy
arrays, and many methods change arrays in place.  Here is the memory: arrays with addresses,
objects and dictionaries (`to_dict`) holding addresses.  A program is a sequence of method
calls and of element assignments by the user; it stops at the first exception.

Dates are lists held by value: `copy`, `index`, `subset`, `scale`, `power` and `drift` copy
them and no method writes elements of `time` or `month` in place.  File names and attributes
are not part of this memory (see the end of this file for attributes).
-/
namespace Verif.Share
open Verif.Harmonics

/-- contents of an array of coefficients: degree, order, date -/
abbrev Arr (K : Type) := ℕ → ℕ → ℕ → K

/-- a `harmonics` object (harmonics.py:145-163), or a dictionary made from one
(harmonics.py:1138-1155): sizes, dates, and the addresses of its two arrays -/
structure Obj where
  lmax : ℕ
  mmax : ℕ
  nt : Option ℕ
  c : ℕ
  s : ℕ
  time : List ℚ
  month : List ℤ

/-- memory: the contents of the arrays at addresses below `next`, the objects created so far,
the dictionaries created so far -/
structure Mem (K : Type) where
  buf : ℕ → Arr K
  next : ℕ
  objs : List Obj
  dicts : List Obj

variable {K : Type} [Field K]

/-- what a user reading the object sees -/
def view (buf : ℕ → Arr K) (o : Obj) : Harm K :=
  ⟨o.lmax, o.mmax, o.nt, buf o.c, buf o.s, o.time, o.month⟩

/-- program start -/
def Mem.empty : Mem K := ⟨fun _ _ _ _ => 0, 0, [], []⟩

/-- write into an existing array -/
def poke (m : Mem K) (a : ℕ) (x : Arr K) : Mem K := { m with buf := Function.update m.buf a x }

/-- allocate an array -/
def alloc (m : Mem K) (x : Arr K) : Mem K × ℕ :=
  ({ m with buf := Function.update m.buf m.next x, next := m.next + 1 }, m.next)

/-- a new object whose two arrays are newly allocated with the contents of `h` -/
def newObj (m : Mem K) (h : Harm K) : Mem K :=
  let a := alloc m h.clm
  let b := alloc a.1 h.slm
  { b.1 with objs := b.1.objs ++ [⟨h.lmax, h.mmax, h.nt, a.2, b.2, h.time, h.month⟩] }

/-- a statement on the cosine array of object `o` followed by the same statement on the sine
array, each reading memory when it runs (for example harmonics.py:1221-1222);
`f` and `g` get the present contents of the memory -/
def inPlace (m : Mem K) (o : Obj) (f g : (ℕ → Arr K) → Arr K) : Mem K :=
  let m1 := poke m o.c (f m.buf)
  poke m1 o.s (g m1.buf)

/-- steps of a program; `i`, `j` number the objects and `d` the dictionaries in order of
creation -/
inductive Cmd (K : Type)
  | zeros (lmax mmax : ℕ) (nt : Option ℕ)
  | copy (i : ℕ)
  | index (i k : ℕ)
  | subset (i : ℕ) (months : List ℤ)
  | scale (i : ℕ) (v : K)
  | scaleVec (i : ℕ) (v : List K)
  | power (i n : ℕ)
  | drift (i : ℕ) (ts : List ℚ) (epoch : ℚ)
  | fromList (is : List ℕ) (p : List ℕ)
  | mean (i : ℕ) (apply : Bool) (idx : List ℕ)
  | add (i j : ℕ)
  | subtract (i j : ℕ)
  | multiply (i j : ℕ)
  | divide (i j : ℕ)
  | convolve (i : ℕ) (v : List K)
  | truncate (i : ℕ) (lmax : Option ℕ) (lmin : ℕ) (mmax : Option ℕ)
  | expandDims (i : ℕ)
  | squeeze (i : ℕ)
  | assign (i : ℕ) (c s : Arr K)
  | toDict (i : ℕ)
  | fromDict (d : ℕ)
  | assignDict (d : ℕ) (c s : Arr K)

/-- the object with number `i`; a name that does not exist is an error of the program -/
def getObj {α : Type} (l : List α) (i : ℕ) : Except Err α :=
  match l[i]? with
  | some o => .ok o
  | none => .error .typeError

/-- `zeros` (harmonics.py:1336-1359): without `nt` there are no dates -/
def zerosHarm (lmax mmax : ℕ) (nt : Option ℕ) : Harm K :=
  ⟨lmax, mmax, nt, fun _ _ _ => 0, fun _ _ _ => 0,
    List.replicate (nt.getD 0) 0, List.replicate (nt.getD 0) 0⟩

/-- sizes after `expand_dims` (harmonics.py:1376-1400) -/
def expandNt : Option ℕ → Option ℕ
  | none => some 1
  | some n => some n

/-- sizes after `squeeze` (harmonics.py:1402-1425) -/
def squeezeNt : Option ℕ → Option ℕ
  | some 1 => none
  | n => n

/-- is the date axis indexable by `idx` (harmonics.py:1660-1664)?  A single-date object has no
date axis, a date beyond the end does not exist -/
def meanErr (h : Harm K) (idx : List ℕ) : Bool :=
  match h.nt with
  | none => true
  | some n => idx.any fun i => decide (n ≤ i)

/-- which dates of `self` meet which dates of `temp` in `add`, `subtract`, `multiply` and
`divide` (harmonics.py:1220-1229), or the exception -/
def pairing (self temp : Harm K) : Except Err ((ℕ → ℕ) × (ℕ → Bool)) :=
  match self.nt, temp.nt with
  | none, none => .ok (id, fun _ => true)
  | none, some _ => .error .valueError
  | some n, none =>
    if self.time.length ≤ n then .ok (fun _ => 0, fun t => t < self.time.length)
    else .error .indexError
  | some n, some n' =>
    if n' = n then .ok (id, fun _ => true)
    else if n' = 1 then .ok (fun _ => 0, fun _ => true)
    else .error .valueError

/-- `add`, `subtract`, `multiply` in memory (harmonics.py:1206-1282): the cosine arrays are
combined in place, then the sine arrays.  Loops over dates are taken together: field `t` of
an array only depends on field `t` of that array and on the other object. -/
def windowedMem (op : K → K → K) (m : Mem K) (i j : ℕ) : Except Err (Mem K) := do
  let o ← getObj m.objs i
  let p ← getObj m.objs j
  let r ← pairing (view m.buf o) (view m.buf p)
  let l1 := bound1 o.lmax p.lmax
  let m1 := bound1 o.mmax p.mmax
  return inPlace m o (fun b => windowOp op l1 m1 r.1 r.2 (b o.c) (b p.c))
    (fun b => windowOp op l1 m1 r.1 r.2 (b o.s) (b p.s))

/-- `divide` in memory (harmonics.py:1284-1313) -/
def divideMem (m : Mem K) (i j : ℕ) : Except Err (Mem K) := do
  let o ← getObj m.objs i
  let p ← getObj m.objs j
  let r ← pairing (view m.buf o) (view m.buf p)
  let l1 := bound1 o.lmax p.lmax
  let m1 := bound1 o.mmax p.mmax
  return inPlace m o (fun b => trilDiv true l1 m1 r.1 r.2 (b o.c) (b p.c))
    (fun b => trilDiv false l1 m1 r.1 r.2 (b o.s) (b p.s))

/-- factor of one array by degree (harmonics.py:1781-1790) -/
def convArr (o : Obj) (v : List K) (a : Arr K) : Arr K := fun l m t =>
  if l ≤ o.lmax ∧ (o.nt.isNone ∨ t < o.time.length) then a l m t * v.getD l 0 else a l m t

/-- `convolve` in memory (harmonics.py:1769-1791) -/
def convolveMem (m : Mem K) (i : ℕ) (v : List K) : Except Err (Mem K) := do
  let o ← getObj m.objs i
  if v.length < o.lmax + 1 ∧ (o.nt.isNone ∨ o.time ≠ []) then .error .indexError
  else return inPlace m o (fun b => convArr o v (b o.c)) (fun b => convArr o v (b o.s))

/-- the loop of `mean` on one array (harmonics.py:1658-1668): the means and the array
afterwards -/
def meanArr (o : Obj) (apply : Bool) (idx : List ℕ) (a : Arr K) : Arr K × Arr K :=
  let r := (lmPairs o.lmax o.mmax).foldl (meanStep apply idx) (fun _ => 0, fun p => a p.1 p.2)
  (fun l m _ => r.1 (l, m), fun l m => r.2 (l, m))

/-- `mean` in memory (harmonics.py:1639-1675): new arrays for the mean, the object's own
arrays changed in place if `apply` -/
def meanMem (m : Mem K) (i : ℕ) (apply : Bool) (idx : List ℕ) : Except Err (Mem K) := do
  let o ← getObj m.objs i
  if meanErr (view m.buf o) idx then .error .indexError
  else
    let time := [npMean (idx.map fun i => o.time.getD i 0)]
    let m1 := newObj m ⟨o.lmax, o.mmax, none, (meanArr o apply idx (m.buf o.c)).1,
      (meanArr o apply idx (m.buf o.s)).1, time, []⟩
    return inPlace m1 o (fun b => (meanArr o apply idx (b o.c)).2)
      (fun b => (meanArr o apply idx (b o.s)).2)

/-- `truncate` in memory (harmonics.py:1597-1637): the object gets two new arrays, its old
arrays are left as they are -/
def truncateMem (m : Mem K) (i : ℕ) (lmax : Option ℕ) (lmin : ℕ) (mmax : Option ℕ) :
    Except Err (Mem K) := do
  let o ← getObj m.objs i
  let h := truncate (view m.buf o) lmax lmin mmax
  let a := alloc m h.clm
  let b := alloc a.1 h.slm
  let o' : Obj := { o with lmax := h.lmax, mmax := h.mmax, c := a.2, s := b.2 }
  return { b.1 with objs := b.1.objs.set i o' }

/-- a method returning a new object (each allocates the arrays it returns: `.copy()` or
`copy.copy` at harmonics.py:1329, 1537-1538, `np.zeros` at 649-650, 1579-1580, 1702-1703,
1752-1753, a new result array at 1697-1698, 1731) -/
def makeMem (m : Mem K) (r : Except Err (Harm K)) : Except Err (Mem K) := r.map (newObj m)

/-- the objects numbered by a list -/
def getObjs {α : Type} (l : List α) : List ℕ → Except Err (List α)
  | [] => .ok []
  | i :: is => do
    let o ← getObj l i
    let os ← getObjs l is
    return o :: os

/-- one step of a program in memory.
* `squeeze`, `expand_dims` (harmonics.py:1376-1425) make views: the arrays stay the same;
* `to_dict` (harmonics.py:1138-1155) stores the arrays themselves in the dictionary;
* `from_dict` (harmonics.py:726-748) copies them. -/
def step (m : Mem K) : Cmd K → Except Err (Mem K)
  | .zeros L M nt => .ok (newObj m (zerosHarm L M nt))
  | .copy i => do makeMem m (.ok (view m.buf (← getObj m.objs i)))
  | .index i k => do makeMem m (index (view m.buf (← getObj m.objs i)) k)
  | .subset i ms => do makeMem m (subset (view m.buf (← getObj m.objs i)) ms)
  | .scale i v => do makeMem m (.ok (scale (view m.buf (← getObj m.objs i)) v))
  | .scaleVec i v => do makeMem m (scaleVec (view m.buf (← getObj m.objs i)) v)
  | .power i n => do makeMem m (.ok (power (view m.buf (← getObj m.objs i)) n))
  | .drift i ts e => do makeMem m (.ok (drift (view m.buf (← getObj m.objs i)) ts e))
  | .fromList is p => do
    makeMem m (fromList ((← getObjs m.objs is).map (view m.buf)) p)
  | .mean i a idx => meanMem m i a idx
  | .add i j => windowedMem (· + ·) m i j
  | .subtract i j => windowedMem (· - ·) m i j
  | .multiply i j => windowedMem (· * ·) m i j
  | .divide i j => divideMem m i j
  | .convolve i v => convolveMem m i v
  | .truncate i L l M => truncateMem m i L l M
  | .expandDims i => do
    let o ← getObj m.objs i
    let o' : Obj := { o with nt := expandNt o.nt }
    return { m with objs := m.objs.set i o' }
  | .squeeze i => do
    let o ← getObj m.objs i
    let o' : Obj := { o with nt := squeezeNt o.nt }
    return { m with objs := m.objs.set i o' }
  | .assign i c s => do
    let o ← getObj m.objs i
    return inPlace m o (fun _ => c) (fun _ => s)
  | .toDict i => do
    let o ← getObj m.objs i
    return { m with dicts := m.dicts ++ [o] }
  | .fromDict d => do makeMem m (.ok (view m.buf (← getObj m.dicts d)))
  | .assignDict d c s => do
    let o ← getObj m.dicts d
    return inPlace m o (fun _ => c) (fun _ => s)

/-- a whole program -/
def run (m : Mem K) : List (Cmd K) → Except Err (Mem K)
  | [] => .ok m
  | c :: cs => do run (← step m c) cs

/-- everything that can be read after a program: the objects and the dictionaries -/
def observe (m : Mem K) : List (Harm K) × List (Harm K) :=
  (m.objs.map (view m.buf), m.dicts.map (view m.buf))

/-! ## file-level attributes

`copy` (harmonics.py:1319-1324) takes over the entries of `self.attributes`, among them the
reference to the dictionary `attributes['ROOT']` made by the readers (harmonics.py:374-376,
476-478).  `to_netCDF4` and `to_HDF5` write `title`, `source` and `reference` into it if it is
not empty (harmonics.py:826-827, 876-881, 971-972). -/

/-- attribute dictionaries by address, and for each object the address of its file-level
attributes, if it has any -/
structure AMem where
  dic : ℕ → List (String × String)
  next : ℕ
  roots : List (Option ℕ)

/-- steps concerning attributes: an object without attributes (a new object), an object read
from a file with the given attributes, a copy, and writing a file with an attribute given by
keyword -/
inductive ACmd
  | new
  | load (attrs : List (String × String))
  | copy (i : ℕ)
  | save (i : ℕ) (key val : String)

/-- assignment in a dictionary -/
def setKey (key val : String) : List (String × String) → List (String × String)
  | [] => [(key, val)]
  | (k, v) :: r => if k = key then (k, val) :: r else (k, v) :: setKey key val r

/-- one step -/
def astep (m : AMem) : ACmd → AMem
  | .new => { m with roots := m.roots ++ [none] }
  | .load attrs => ⟨Function.update m.dic m.next attrs, m.next + 1, m.roots ++ [some m.next]⟩
  | .copy i => match m.roots[i]? with
    | some r => { m with roots := m.roots ++ [r] }
    | none => m
  | .save i key val => match m.roots[i]? with
    | some (some a) =>
      if m.dic a = [] then m
      else { m with dic := Function.update m.dic a (setKey key val (m.dic a)) }
    | _ => m

/-- a sequence of steps -/
def arun (m : AMem) (cs : List ACmd) : AMem := cs.foldl astep m

/-- file-level attributes of object `i` -/
def attrsOf (m : AMem) (i : ℕ) : Option (List (String × String)) :=
  (m.roots[i]?).map fun r => match r with
    | some a => m.dic a
    | none => []

end Verif.Share
