import Verif.SpatialIO.Model

/-!
# Model of spatial.to_netCDF4, to_HDF5, from_netCDF4, from_HDF5, to_index and from_index

A data file is a list of named variables with attributes.  Numbers are stored exactly.  Data types, compression, the
software and date attributes and the libraries themselves are not modelled beyond: a netCDF4 dimension or variable cannot
be created twice, a netCDF4 variable takes only an array of its own shape, and an HDF5 file opened with `w-` must not exist.
-/
namespace Verif.SpatialIO.Data
open Verif.SpatialIO (isFill)

inductive Err where
  | attributeError | keyError | nameInUse | shape | exists | indexError | typeError
deriving DecidableEq

/-- an array: shape and the values in row-major order -/
structure Arr (α : Type) where
  shape : List ℕ
  flat : List α
deriving DecidableEq

/-- `np.squeeze` -/
def squeeze {α : Type} (a : Arr α) : Arr α := { a with shape := a.shape.filter fun n => n ≠ 1 }

/-- `np.atleast_1d` -/
def atleast1d {α : Type} (a : Arr α) : Arr α := if a.shape = [] then { a with shape := [1] } else a

/-- `a[:,:,None]` of an array with two dimensions; other arrays are left alone (spatial.py:1243-1253) -/
def addDim {α : Type} (a : Arr α) : Arr α := if a.shape.length = 2 then { a with shape := a.shape ++ [1] } else a

/-- `a.T` of an array with two dimensions -/
def transpose {α : Type} [Inhabited α] (a : Arr α) : Arr α :=
  match a.shape with
  | [r, c] => ⟨[c, r], (List.range c).flatMap fun j : ℕ => (List.range r).map fun i : ℕ => a.flat.getD (i * c + j) default⟩
  | _ => a

/-- attribute values are texts; `none` is Python's `None` -/
abbrev Attrs := List (String × Option String)

/-- a variable of a file -/
structure Var where
  arr : Arr (Option ℚ)
  fill : Option (Option ℚ)
  attrs : Attrs
deriving DecidableEq

/-- a data file -/
structure File where
  dims : List (String × ℕ)
  vars : List (String × Var)
  root : Attrs
deriving DecidableEq

/-- attributes of a `spatial` object: a dictionary of dictionaries, or the list made by `from_list` -/
inductive Meta where
  | dict (d : List (String × Attrs))
  | list (l : List (List (String × Attrs)))

/-- a `spatial` object (spatial.py:122-136).  The months follow from the times and are not modelled here (C01-C03) -/
structure Sp where
  lon : Arr (Option ℚ)
  lat : Arr (Option ℚ)
  time : Arr (Option ℚ)
  data : Arr (Option ℚ)
  mask : Arr Bool
  fill : Option (Option ℚ)
  attrs : Meta

/-- `update_mask` without errors (spatial.py:1170-1180) -/
def updateMask (o : Sp) : Sp :=
  match o.fill with
  | none => o
  | some f =>
    let m : List Bool := List.zipWith (fun x b => b || isFill o.fill x || x.isNone) o.data.flat o.mask.flat
    { o with
      mask := { o.mask with flat := m }
      data := { o.data with flat := List.zipWith (fun x b => if b then f else x) o.data.flat m } }

/-- `expand_dims` (spatial.py:1233-1256) -/
def expandDims (o : Sp) : Sp :=
  updateMask { o with time := atleast1d o.time, data := addDim o.data, mask := if o.data.shape.length = 2 then addDim o.mask else o.mask }

/-- names of the variables: longitude, latitude, data, time -/
structure Names where
  lon : String := "lon"
  lat : String := "lat"
  data : String := "z"
  time : String := "time"

/-- keyword arguments of the writers (spatial.py:766-832): units and long name of the data and of the dates; `attributes`
as given by the caller, or `none` for the default -/
structure WOpts where
  names : Names := {}
  units : Option String := none
  longname : Option String := none
  timeUnits : Option String := some "years"
  timeLongname : Option String := some "Date_in_Decimal_Years"
  attributes : Option (List (String × Attrs)) := none
  title : Option String := none
  source : Option String := none
  reference : Option String := none
  date : Bool := true
  clobber : Bool := true

/-- `d[key] = value` of a dictionary -/
def put {α : Type} (k : String) (v : α) (d : List (String × α)) : List (String × α) :=
  (k, v) :: d.filter fun p => p.1 ≠ k

/-- `if kwargs['title']: attributes['ROOT']['title'] = kwargs['title']` (spatial.py:857-863): a global attribute is
added unless it is None or empty -/
def addRoot (k : String) (v : Option String) (a : List (String × Attrs)) : List (String × Attrs) :=
  match v with
  | some t => if t = "" then a else put "ROOT" (put k (some t) ((a.lookup "ROOT").getD [])) a
  | none => a

/-- the attributes used by the writers (spatial.py:815-816, 843-873).  Unless every variable has its attributes, the
attributes of all variables are replaced by defaults.  A title, source or reference is added to the global attributes
when not empty -/
def writeAttrs (ns : Names) (w : WOpts) (own : Attrs) : List (String × Attrs) :=
  let a0 := w.attributes.getD [("ROOT", own)]
  let keys := [ns.lon, ns.lat, ns.data] ++ if w.date then [ns.time] else []
  let a1 := if keys.all fun k => (a0.lookup k).isSome then a0
    else
      let a := put ns.lon [("long_name", some "longitude"), ("units", some "degrees_east")] a0
      let a := put ns.lat [("long_name", some "latitude"), ("units", some "degrees_north")] a
      let a := put ns.data [("long_name", w.longname), ("units", w.units)] a
      if w.date then put ns.time [("long_name", w.timeLongname), ("units", w.timeUnits)] a else a
  addRoot "reference" w.reference (addRoot "source" w.source (addRoot "title" w.title a1))

/-- attributes of a variable that are written: empty ones and some names are skipped (spatial.py:901-909) -/
def varAttrs (a : Attrs) : Attrs :=
  a.filter fun p => p.2 ≠ none ∧ p.2 ≠ some "" ∧ p.1 ≠ "DIMENSION_LIST" ∧ p.1 ≠ "CLASS" ∧ p.1 ≠ "NAME" ∧ p.1 ≠ "_FillValue"

/-- a dimension with its variable is created and filled (spatial.py:885-890, 899-900) -/
def addAxis (key : String) (a : Arr (Option ℚ)) (at_ : Attrs) (f : File) : Except Err File :=
  if (f.dims.lookup key).isSome ∨ (f.vars.lookup key).isSome then .error .nameInUse
  else if a.shape ≠ [a.flat.length] then .error .shape
  else .ok { f with dims := f.dims ++ [(key, a.flat.length)], vars := f.vars ++ [(key, ⟨a, none, varAttrs at_⟩)] }

/-- the time dimension, if there are dates (spatial.py:877-882) -/
def addTime (date : Bool) (key : String) (a : Arr (Option ℚ)) (at_ : Attrs) (f : File) : Except Err File :=
  if date then addAxis key a at_ f else .ok f

/-- the data variable is created and filled (spatial.py:891-900): its shape is that of the first dimensions -/
def addData (key : String) (dims : List ℕ) (a : Arr (Option ℚ)) (fill : Option (Option ℚ)) (at_ : Attrs) (f : File) :
    Except Err File :=
  if (f.vars.lookup key).isSome then .error .nameInUse
  else if a.shape ≠ dims.take a.shape.length then .error .shape
  else .ok { f with vars := f.vars ++ [(key, ⟨a, fill, varAttrs at_⟩)] }

/-- `to_netCDF4` (spatial.py:766-926): the changed object and the file.  The object gets
its time dimension, and a title, source or reference ends up in its own global attributes if it has any.  `old` is the existing file.  HDF5 differs only in
the mode of opening (spatial.py:967, 928-1050); its arrays are not checked against the dimensions, which is not modelled -/
def write (hdf5 : Bool) (w : WOpts) (old : Option File) (o : Sp) : Except Err (Sp × File) :=
  match o.attrs with
  | .list _ => .error .attributeError
  | .dict d =>
    let own := (d.lookup "ROOT").getD []
    if w.attributes.isSome ∧ ((w.attributes.getD []).lookup "ROOT") = none then .error .keyError
    else if hdf5 = true ∧ w.clobber = false ∧ old.isSome then .error .exists
    else
      let f0 : File := if w.clobber then ⟨[], [], []⟩ else old.getD ⟨[], [], []⟩
      let at_ := writeAttrs w.names w own
      let get := fun k => (at_.lookup k).getD []
      let o1 := if w.date then expandDims o else o
      let o' := if w.attributes = none ∧ own ≠ [] then { o1 with attrs := .dict (put "ROOT" (get "ROOT") d) } else o1
      let dims := [o'.lat.flat.length, o'.lon.flat.length] ++ if w.date then [o'.time.flat.length] else []
      do
        let f1 ← addAxis w.names.lat o'.lat (get w.names.lat) f0
        let f2 ← addAxis w.names.lon o'.lon (get w.names.lon) f1
        let f3 ← addTime w.date w.names.time o'.time (get w.names.time) f2
        let f4 ← addData w.names.data dims o'.data o.fill (get w.names.data) f3
        return (o', { f4 with root := f4.root ++ get "ROOT" })

/-- variable attributes that are read (spatial.py:381-382) -/
def attributeNames : List String :=
  ["description", "units", "long_name", "calendar", "standard_name", "_FillValue", "missing_value"]

/-- a variable is read (spatial.py:390-402) -/
def getVar (f : File) (key : String) : Except Err (Arr (Option ℚ) × Attrs) :=
  match f.vars.lookup key with
  | none => .error .keyError
  | some v => .ok (squeeze v.arr, v.attrs.filter fun p => p.1 ∈ attributeNames)

/-- `if (self.data.ndim == 2) and (len(self.lon) == sz[0]): self.data = self.data.T` (spatial.py:403-406, 526-529) -/
def orient (nlon : ℕ) (z : Arr (Option ℚ)) : Arr (Option ℚ) :=
  match z.shape with
  | [r, _] => if nlon = r then transpose z else z
  | _ => z

/-- the time variable, if there are dates (spatial.py:386-387) -/
def getTime (f : File) (date : Bool) (key : String) : Except Err (Arr (Option ℚ) × Attrs) :=
  if date then getVar f key else .ok (⟨[], []⟩, [])

/-- the object made of the variables (spatial.py:403-420).  The longitudes of a grid with one column have no length -/
def assemble (root : Attrs) (fill : Option (Option ℚ)) (date : Bool) (lon lat z t : Arr (Option ℚ) × Attrs) :
    Except Err Sp :=
  if z.1.shape.length = 2 ∧ lon.1.shape = [] then .error .typeError
  else
    let data := orient lon.1.flat.length z.1
    .ok (updateMask
      { lon := lon.1, lat := lat.1, time := t.1, data := data
        mask := ⟨data.shape, data.flat.map fun x => isFill fill x⟩
        fill := fill
        attrs := .dict ([("ROOT", root), ("lon", lon.2), ("lat", lat.2), ("data", z.2)] ++
          if date then [("time", t.2)] else []) })

/-- `from_netCDF4` and `from_HDF5` (spatial.py:316-420, 422-544) -/
def read (ns : Names) (date : Bool) (f : File) : Except Err Sp := do
  let lon ← getVar f ns.lon
  let lat ← getVar f ns.lat
  let z ← getVar f ns.data
  let t ← getTime f date ns.time
  assemble f.root ((f.vars.lookup ns.data).bind fun v => v.fill) date lon lat z t

end Verif.SpatialIO.Data
