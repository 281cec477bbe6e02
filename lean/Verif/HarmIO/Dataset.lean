import Verif.Harmonics.Model
import Verif.SpatialIO.Dataset

/-!
# Model of harmonics.to_netCDF4, to_HDF5, from_netCDF4 and from_HDF5

A data file is a list of named variables with attributes.  Numbers are stored exactly.  Data types, compression, the
software and date attributes and the libraries themselves are not modelled beyond: a netCDF4 dimension or variable cannot
be created twice, a netCDF4 variable takes only an array of its own shape, and an HDF5 file opened with `w-` must not exist.
-/
namespace Verif.HarmIO.Data
open Verif.Harmonics
open Verif.SpatialIO.Data (Attrs put addRoot)
open Verif.Time (adjustMonths)

inductive Err where
  | keyError | nameInUse | shape | exists | indexError | typeError | valueError | notFound
deriving DecidableEq

/-- values of a variable: degrees or orders, months, dates, or coefficients (one row for each degree and order; `nt` dates
or none) -/
inductive Val (K : Type) where
  | degs (xs : List ℕ)
  | ints (xs : List ℤ)
  | nums (xs : List ℚ)
  | coefs (nt : Option ℕ) (rows : List (ℕ → K))

/-- a variable of a file -/
structure Var (K : Type) where
  val : Val K
  attrs : Attrs

/-- a data file -/
structure File (K : Type) where
  dims : List (String × ℕ)
  vars : List (String × Var K)
  root : Attrs

/-- the fields of a flattened object that can be written -/
inductive Fld where
  | l | m | clm | slm | time | month
deriving DecidableEq

/-- their names -/
def Fld.name : Fld → String
  | .l => "l" | .m => "m" | .clm => "clm" | .slm => "slm" | .time => "time" | .month => "month"

/-- a `harmonics` object with its global attributes (harmonics.py:145-163) -/
structure Obj (K : Type) where
  h : Harm K
  root : Attrs

/-- keyword arguments of the writers (harmonics.py:781-841, 926-986); `attributes` as given by the caller, or `none` for
the default; `mapping` from fields to names of variables, empty for the default -/
structure WOpts where
  units : Option String := some "Geodesy_Normalization"
  timeUnits : Option String := some "years"
  timeLongname : Option String := some "Date_in_Decimal_Years"
  monthsName : String := "month"
  monthsUnits : Option String := some "number"
  monthsLongname : Option String := some "GRACE_month"
  mapping : List (Fld × String) := []
  attributes : Option (List (String × Attrs)) := none
  title : Option String := none
  source : Option String := none
  reference : Option String := none
  date : Bool := true
  clobber : Bool := true

/-- the mapping that is used (harmonics.py:848-856, 993-1001) -/
def WOpts.used (w : WOpts) : List (Fld × String) :=
  if w.mapping = [] then
    [(.l, "l"), (.m, "m"), (.clm, "clm"), (.slm, "slm")] ++ if w.date then [(.time, "time"), (.month, w.monthsName)] else []
  else w.mapping

/-- `kwargs['attributes'][kwargs['field_mapping'][field]] = ...`: an unmapped field is a `KeyError` -/
def putFor (mp : List (Fld × String)) (f : Fld) (a : Attrs) (d : List (String × Attrs)) :
    Except Err (List (String × Attrs)) :=
  match mp.lookup f with
  | some k => .ok (put k a d)
  | none => .error .keyError

/-- the default attributes of the dates (harmonics.py:873-880, 1018-1025) -/
def putDates (w : WOpts) (a : List (String × Attrs)) : Except Err (List (String × Attrs)) :=
  if w.date then do
    let a1 ← putFor w.used .time [("long_name", w.timeLongname), ("units", w.timeUnits)] a
    putFor w.used .month [("long_name", w.monthsLongname), ("units", w.monthsUnits)] a1
  else .ok a

/-- the attributes used by the writers (harmonics.py:832-833, 857-887, 977-978, 1002-1032).  The test compares the given
attributes with the names of the fields, not of the variables -/
def writeAttrs (w : WOpts) (own : Attrs) : Except Err (List (String × Attrs)) :=
  let a0 := w.attributes.getD [("ROOT", own)]
  let roots := fun a => addRoot "reference" w.reference (addRoot "source" w.source (addRoot "title" w.title a))
  if w.used.all fun p => (a0.lookup p.1.name).isSome then .ok (roots a0)
  else do
    let a1 ← putFor w.used .l [("long_name", some "spherical_harmonic_degree"), ("units", some "Wavenumber")] a0
    let a2 ← putFor w.used .m [("long_name", some "spherical_harmonic_order"), ("units", some "Wavenumber")] a1
    let a3 ← putFor w.used .clm [("long_name", some "cosine_spherical_harmonics"), ("units", w.units)] a2
    let a4 ← putFor w.used .slm [("long_name", some "sine_spherical_harmonics"), ("units", w.units)] a3
    let a5 ← putDates w a4
    return roots a5

/-- attributes of a variable that are written: empty ones and some names are skipped (harmonics.py:910-917) -/
def varAttrs (a : Attrs) : Attrs :=
  a.filter fun p => p.2 ≠ none ∧ p.2 ≠ some "" ∧ p.1 ≠ "DIMENSION_LIST" ∧ p.1 ≠ "CLASS" ∧ p.1 ≠ "NAME"

variable {K : Type} [Field K]

/-- `getattr(temp, field)` of the flattened object, after `expand_dims` if there are dates (harmonics.py:892-893, 899,
989-990, 1036; expand_dims 1377-1400) -/
def value (date : Bool) (f : Flat K) : Fld → Val K
  | .l => .degs (f.rows.map Row.l)
  | .m => .degs (f.rows.map Row.m)
  | .clm => .coefs (if date then some (f.nt.getD 1) else f.nt) (f.rows.map Row.c)
  | .slm => .coefs (if date then some (f.nt.getD 1) else f.nt) (f.rows.map Row.s)
  | .time => .nums f.time
  | .month => .ints f.month

/-- the dimensions of a netCDF4 variable fit its values (harmonics.py:900-909) -/
def fits (date : Bool) (f : Flat K) : Fld → Bool
  | .l => true
  | .m => true
  | .clm => if date then f.nt.getD 1 = f.time.length else f.nt = none
  | .slm => if date then f.nt.getD 1 = f.time.length else f.nt = none
  | .time => date
  | .month => date ∧ f.month.length = f.time.length

/-- a variable is created and filled (harmonics.py:897-917, 1035-1047).  Without dates the fields time and month of the
flattened object are None and cannot be written -/
def addVar (hdf5 date : Bool) (at_ : List (String × Attrs)) (f : Flat K) (file : File K) (p : Fld × String) :
    Except Err (File K) :=
  if hdf5 = false ∧ ¬ fits date f p.1 then .error .shape
  else if date = false ∧ (p.1 = .time ∨ p.1 = .month) then .error .typeError
  else if (file.vars.lookup p.2).isSome then .error .nameInUse
  else
    match at_.lookup p.2 with
    | none => .error .keyError
    | some a => .ok { file with vars := file.vars ++ [(p.2, ⟨value date f p.1, varAttrs a⟩)] }

/-- the dimensions of a netCDF4 file (harmonics.py:888-895); an HDF5 file has none -/
def addDims (hdf5 date : Bool) (f : Flat K) (file : File K) : Except Err (File K) :=
  if hdf5 then .ok file
  else if (file.dims.lookup "lm").isSome ∨ (date = true ∧ (file.dims.lookup "time").isSome) then .error .nameInUse
  else .ok { file with dims := file.dims ++ ("lm", f.rows.length) :: if date then [("time", f.time.length)] else [] }

/-- the flattened object; its errors are passed on (harmonics.py:846, 987) -/
def flat (h : Harm K) : Except Err (Flat K) :=
  match flatten h with
  | .ok f => .ok f
  | .error .indexError => .error .indexError
  | .error _ => .error .valueError

/-- `to_netCDF4` and `to_HDF5` (harmonics.py:781-924, 926-1055): the object afterwards and the file.  A title, source or
reference ends up in the object's own global attributes if it has any. `old` is the existing file. -/
def write (hdf5 : Bool) (w : WOpts) (old : Option (File K)) (o : Obj K) : Except Err (Obj K × File K) :=
  if hdf5 = true ∧ w.clobber = false ∧ old.isSome then .error .exists
  else
    let f0 : File K := if w.clobber then ⟨[], [], []⟩ else old.getD ⟨[], [], []⟩
    do
      let f ← flat o.h
      let at_ ← writeAttrs w o.root
      let f1 ← addDims hdf5 w.date f f0
      let f2 ← w.used.foldlM (addVar hdf5 w.date at_ f) f1
      match at_.lookup "ROOT" with
      | none => .error .keyError
      | some r =>
        return (if w.attributes = none ∧ o.root ≠ [] then { o with root := r } else o,
          { f2 with root := f2.root ++ r })

/-- a variable is read (harmonics.py:352-353, 454-455) -/
def getVar (f : File K) (key : String) : Except Err (Val K) :=
  match f.vars.lookup key with
  | none => .error .keyError
  | some v => .ok v.val

def asDegs : Val K → Except Err (List ℕ)
  | .degs xs => .ok xs
  | _ => .error .typeError

def asInts : Val K → Except Err (List ℤ)
  | .ints xs => .ok xs
  | _ => .error .typeError

def asNums : Val K → Except Err (List ℚ)
  | .nums xs => .ok xs
  | _ => .error .typeError

def asCoefs : Val K → Except Err (Option ℕ × List (ℕ → K))
  | .coefs nt rows => .ok (nt, rows)
  | _ => .error .typeError

/-- the dates, if wanted (harmonics.py:349-353, 451-455) -/
def getDates (date : Bool) (f : File K) : Except Err (List ℚ × List ℤ) :=
  if date then do
    let t ← getVar f "time" >>= asNums
    let g ← getVar f "month" >>= asInts
    return (t, g)
  else .ok ([], [])

/-- what a reader returns: the object, the number of dimensions of its arrays, units and description of the variables, and
the global attributes -/
structure Out (K : Type) where
  h : Harm K
  ndim : ℕ
  attrs : List (String × String × String)
  root : Attrs

/-- units and description, if a variable has both (harmonics.py:362-370, 464-472) -/
def unitsName (a : Attrs) : Option (String × String) :=
  match a.lookup "units", a.lookup "long_name" with
  | some (some u), some (some n) => some (u, n)
  | _, _ => none

/-- `[fileID.variables[key].units, fileID.variables[key].long_name]` (harmonics.py:362-370, 464-472) -/
def readAttrs (f : File K) (key : String) : Option (String × String × String) :=
  (f.vars.lookup key).bind fun v => (unitsName v.attrs).map fun q => (key, q)

/-- rows of the flattened object that is read; the loop of `expand` runs over the degrees, the other variables must be at
least as long (harmonics.py:1505-1514) -/
def zipRows (ls ms : List ℕ) (cs ss : List (ℕ → K)) : Except Err (List (Row K)) :=
  if ms.length < ls.length ∨ cs.length < ls.length ∨ ss.length < ls.length then .error .indexError
  else .ok ((List.range ls.length).map fun i : ℕ => ⟨ls.getD i 0, ms.getD i 0, cs.getD i (fun _ => 0), ss.getD i (fun _ => 0)⟩)

/-- `np.max` -/
def npMax (xs : List ℕ) : Except Err ℕ :=
  match xs.max? with
  | some x => .ok x
  | none => .error .valueError

/-- `expand` with its errors (harmonics.py:357-358, 459-460) -/
def expandE (f : Flat K) : Except Err (Harm K) :=
  match expand f with
  | .ok h => .ok h
  | .error _ => .error .indexError

/-- `squeeze` (harmonics.py:1402-1425): the last axis is dropped if it has length one, whatever it is, so a field without
date axis and with order zero only loses its orders.  Second part: number of dimensions afterwards -/
def squeezeN (h : Harm K) : Harm K × ℕ :=
  match h.nt with
  | some 1 => ({ h with nt := none }, 2)
  | some _ => (h, 3)
  | none => (h, if h.mmax = 0 then 1 else 2)

/-- names of the variables that are read (harmonics.py:347-351, 449-453) -/
def fields (date : Bool) : List String := ["l", "m", "clm", "slm"] ++ if date then ["time", "month"] else []

/-- `from_netCDF4` and `from_HDF5` (harmonics.py:294-382, 384-484) of an open file: the object that is returned.  Cosine and
sine variables with different numbers of dates are refused, numpy would broadcast a single date; negative degrees are not
modelled -/
def read (date : Bool) (f : File K) : Except Err (Out K) := do
  let ls ← getVar f "l" >>= asDegs
  let ms ← getVar f "m" >>= asDegs
  let c ← getVar f "clm" >>= asCoefs
  let s ← getVar f "slm" >>= asCoefs
  let tg ← getDates date f
  let lmax ← npMax ls
  let mmax ← npMax ms
  let rows ← zipRows ls ms c.2 s.2
  if c.1 ≠ s.1 then .error .valueError
  else do
    let h ← expandE ⟨lmax, mmax, c.1, rows, tg.1, tg.2⟩
    let q := squeezeN { h with month := adjustMonths h.month }
    return { h := q.1, ndim := q.2, attrs := (fields date).filterMap (readAttrs f), root := f.root }

end Verif.HarmIO.Data
