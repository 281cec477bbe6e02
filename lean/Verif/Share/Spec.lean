import Verif.Share.Model

/-!
# Programs on independent values

The same programs as `Verif.Share.Model`, run on values: every object owns its coefficients,
a method changes at most the object it is called on.  A dictionary of `to_dict` is a window
on the object it was made from; when that object is truncated the window keeps showing the
last coefficients before.
-/
namespace Verif.Share
open Verif.Harmonics

/-- what a dictionary shows: the coefficients of an object, or coefficients that no object
has any more -/
inductive Src
  | live (i : ℕ)
  | kept (k : ℕ)
deriving DecidableEq

/-- a dictionary: its own sizes and dates, and a source of coefficients -/
structure VDict where
  lmax : ℕ
  mmax : ℕ
  nt : Option ℕ
  time : List ℚ
  month : List ℤ
  src : Src

/-- state of a program on values -/
structure VState (K : Type) where
  objs : List (Harm K)
  dicts : List VDict
  kept : List (Arr K × Arr K)

variable {K : Type} [Field K]

/-- program start -/
def VState.empty : VState K := ⟨[], [], []⟩

/-- coefficients shown by a source -/
def VState.source (v : VState K) : Src → Arr K × Arr K
  | .live i => match v.objs[i]? with
    | some h => (h.clm, h.slm)
    | none => (fun _ _ _ => 0, fun _ _ _ => 0)
  | .kept k => v.kept.getD k (fun _ _ _ => 0, fun _ _ _ => 0)

/-- what a user reading the dictionary sees -/
def VState.dict (v : VState K) (d : VDict) : Harm K :=
  ⟨d.lmax, d.mmax, d.nt, (v.source d.src).1, (v.source d.src).2, d.time, d.month⟩

/-- a new object -/
def VState.push (v : VState K) (r : Except Err (Harm K)) : Except Err (VState K) :=
  r.map fun h => { v with objs := v.objs ++ [h] }

/-- replace object `i` -/
def VState.put (v : VState K) (i : ℕ) (r : Except Err (Harm K)) : Except Err (VState K) :=
  r.map fun h => { v with objs := v.objs.set i h }

/-- after truncation of object `i` its dictionaries show kept coefficients number `k` -/
def unlink (i k : ℕ) (d : VDict) : VDict :=
  if d.src = .live i then { d with src := .kept k } else d

/-- truncation: the object changes, the windows on it keep the coefficients before -/
def VState.cut (v : VState K) (i : ℕ) (h h' : Harm K) : VState K :=
  { objs := v.objs.set i h'
    dicts := v.dicts.map (unlink i v.kept.length)
    kept := v.kept ++ [(h.clm, h.slm)] }

/-- mean of an object: the object changes if asked to, the mean is a new object -/
def VState.avg (v : VState K) (i : ℕ) (h : Harm K) (apply : Bool) (idx : List ℕ) :
    Except Err (VState K) :=
  if meanErr h idx then .error .indexError
  else .ok { v with objs := v.objs.set i (mean h apply idx).2 ++ [(mean h apply idx).1] }

/-- the user assigns the coefficients shown by a dictionary -/
def VState.assignSrc (v : VState K) (c s : Arr K) : Src → VState K
  | .live i => match v.objs[i]? with
    | some h => { v with objs := v.objs.set i { h with clm := c, slm := s } }
    | none => v
  | .kept k => { v with kept := v.kept.set k (c, s) }

/-- one step of a program on values -/
def vstep (v : VState K) : Cmd K → Except Err (VState K)
  | .zeros L M nt => v.push (.ok (zerosHarm L M nt))
  | .copy i => do v.push (.ok (← getObj v.objs i))
  | .index i k => do v.push (index (← getObj v.objs i) k)
  | .subset i ms => do v.push (subset (← getObj v.objs i) ms)
  | .scale i a => do v.push (.ok (scale (← getObj v.objs i) a))
  | .scaleVec i a => do v.push (scaleVec (← getObj v.objs i) a)
  | .power i n => do v.push (.ok (power (← getObj v.objs i) n))
  | .drift i ts e => do v.push (.ok (drift (← getObj v.objs i) ts e))
  | .fromList is p => do v.push (fromList (← getObjs v.objs is) p)
  | .mean i a idx => do v.avg i (← getObj v.objs i) a idx
  | .add i j => do v.put i (add (← getObj v.objs i) (← getObj v.objs j))
  | .subtract i j => do v.put i (subtract (← getObj v.objs i) (← getObj v.objs j))
  | .multiply i j => do v.put i (multiply (← getObj v.objs i) (← getObj v.objs j))
  | .divide i j => do v.put i (divide (← getObj v.objs i) (← getObj v.objs j))
  | .convolve i a => do v.put i (convolve (← getObj v.objs i) a)
  | .truncate i L l M => do
    let h ← getObj v.objs i
    return v.cut i h (truncate h L l M)
  | .expandDims i => do
    let h ← getObj v.objs i
    v.put i (.ok { h with nt := expandNt h.nt })
  | .squeeze i => do v.put i (.ok (squeeze (← getObj v.objs i)))
  | .assign i c s => do
    let h ← getObj v.objs i
    v.put i (.ok { h with clm := c, slm := s })
  | .toDict i => do
    let h ← getObj v.objs i
    let d : VDict := ⟨h.lmax, h.mmax, h.nt, h.time, h.month, .live i⟩
    return { v with dicts := v.dicts ++ [d] }
  | .fromDict d => do v.push (.ok (v.dict (← getObj v.dicts d)))
  | .assignDict d c s => do return v.assignSrc c s (← getObj v.dicts d).src

/-- a whole program on values -/
def vrun (v : VState K) : List (Cmd K) → Except Err (VState K)
  | [] => .ok v
  | c :: cs => do vrun (← vstep v c) cs

/-- everything that can be read after a program on values -/
def VState.observe (v : VState K) : List (Harm K) × List (Harm K) :=
  (v.objs, v.dicts.map v.dict)

end Verif.Share
