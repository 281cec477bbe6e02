import Verif.SpatialError.Model
import Verif.Spatial.Scaling

/-!
# Model of `scripts/scale_grace_maps.py` and of the files of `scaling_factors`

Monthly maps multiplied by scaling factors which are read from a file, with their leakage errors and the propagated errors of
the coefficients.  Exact real arithmetic.  The stages shared with `grace_spatial_maps` and `grace_spatial_error` are those of
Verif.Maps and Verif.SpatialError.  Attributes, logging and permissions are not modelled, nor the files left behind by a run
which ends with an exception.
-/
namespace Verif.ScaleMaps
open Verif.Harmonics Verif.Maps Verif.Spatial Verif.SpatialError

/-- exceptions: of the shared stages; unknown column; `None` as an array; index of another shape; arrays of different shape;
`directory` of an object of the class `harmonics`; unknown dimensions -/
inductive Err
  | error (e : SpatialError.Err) | keyError | typeError | indexError | shape | attributeError | valueError

/-! ## Scaling factors -/

/-- an array with two dimensions -/
structure Arr2 where
  rows : ℕ
  cols : ℕ
  val : ℕ → ℕ → Val ℝ

/-- `.T` -/
def Arr2.T (a : Arr2) : Arr2 := ⟨a.cols, a.rows, fun i j => a.val j i⟩

/-- a netCDF4 or HDF5 file with the variables of `field_mapping` (scale_grace_maps.py:301-302): `lon`, `lat`, `kfactor`,
`error`, `power`, and the attribute `_FillValue` of `kfactor`.  Files without one of the variables are not modelled, nor
singleton dimensions -/
structure FactorFile where
  lon : List ℚ
  lat : List ℚ
  kfactor : Arr2
  error : Arr2
  power : Arr2
  fill : Option (Val ℝ)

/-- a `scaling_factors` object -/
structure Factors where
  lon : List ℚ
  lat : List ℚ
  data : Arr2
  error : Arr2
  magnitude : Arr2
  mask : ℕ → ℕ → Bool

/-- the same shape -/
def sameShape (a b : Arr2) : Prop := a.rows = b.rows ∧ a.cols = b.cols

open scoped Classical in
/-- `update_mask` of `scaling_factors` (spatial.py:1991-2005): an array of another shape cannot be indexed by the mask -/
noncomputable def updateFactors (f : Option (Val ℝ)) (x : Factors) : Except Err Factors :=
  match f with
  | none => .ok x
  | some f =>
    let mask := fun i j => x.mask i j || veq (x.data.val i j) f || isnan (x.data.val i j)
    let put := fun a : Arr2 => (⟨a.rows, a.cols, fun i j => if mask i j then f else a.val i j⟩ : Arr2)
    if sameShape x.data x.error ∧ sameShape x.data x.magnitude then
      .ok { x with data := put x.data, error := put x.error, magnitude := put x.magnitude, mask := mask }
    else .error .indexError

open scoped Classical in
/-- `scaling_factors().from_netCDF4(SCALE_FILE, date=False, field_mapping=...)` and `from_HDF5` (scale_grace_maps.py:307-312;
spatial.py:334-414, 470-560): only the factors are transposed when their first dimension is that of the longitudes -/
noncomputable def readFactors (f : FactorFile) : Except Err Factors :=
  let data := if f.lon.length = f.kfactor.rows then f.kfactor.T else f.kfactor
  let mask : ℕ → ℕ → Bool := match f.fill with
    | some v => fun i j => veq (data.val i j) v
    | none => fun _ _ => false
  updateFactors f.fill ⟨f.lon, f.lat, data, f.error, f.power, mask⟩

/-! ### Text -/

/-- `d = {c:r for c,r in zip(columns, rx.findall(line))}` (spatial.py:1899); the numbers of a line are given -/
def rowOf (columns : List String) (numbers : List ℚ) (key : String) : Option ℚ :=
  ((columns.zip numbers).reverse.find? fun p => p.1 = key).map (·.2)

/-- one line (spatial.py:1896-1911): the factor is looked up as `data`, a name that the default columns do not have; `error` and
`magnitude` of the object are `None`, into which nothing can be stored.  (Indices beyond the grid are left out: the line fails
in any case.) -/
def readRow (columns : List String) (numbers : List ℚ) : Except Err Unit :=
  match rowOf columns numbers "lon", rowOf columns numbers "lat" with
  | some _, some _ =>
    match rowOf columns numbers "data" with
    | none => .error .keyError
    | some _ =>
      match rowOf columns numbers "error" with
      | none => .error .keyError
      | some _ => .error .typeError
  | _, _ => .error .keyError

/-- the loop over the lines -/
def readRows (columns : List String) : List (List ℚ) → Except Err Unit
  | [] => .ok ()
  | r :: rest =>
    match readRow columns r with
    | .error e => .error e
    | .ok _ => readRows columns rest

/-- `default_columns` (spatial.py:1842) -/
def defaultColumns : List String := ["lon", "lat", "kfactor", "error", "magnitude"]

/-- the cells that `to_ascii` writes (spatial.py:1934-1938): longitude, latitude, factor, error and magnitude of every valid
cell; `fmt` is the rounding to four decimals.  Cells whose factor is NaN are left out of the model (they print `nan`) -/
noncomputable def writeRows (fmt : ℝ → ℚ) (fill : Option (Val ℝ)) (x : Factors) : List (List ℚ) :=
  (List.range x.data.rows).flatMap fun i => ((List.range x.data.cols).filter fun j =>
      !x.mask i j && (match fill with | some f => !veq (x.data.val i j) f | none => true)).map fun j =>
    [x.lon.getD j 0, x.lat.getD i 0, fmt ((x.data.val i j).getD 0), fmt ((x.error.val i j).getD 0),
      fmt ((x.magnitude.val i j).getD 0)]

/-- what the option `SCALE_FILE` leads to -/
inductive ScaleFile
  | text (rows : List (List ℚ))
  | data (f : FactorFile)

/-- reading by format (scale_grace_maps.py:304-312).  A text file without lines gives an object without errors, with which the
program fails later (`np.power(None,-1)`, scale_grace_maps.py:542) -/
noncomputable def factorsOf : ScaleFile → Except Err Factors
  | .text rows =>
    match readRows defaultColumns rows with
    | .error e => .error e
    | .ok _ => .error .typeError
  | .data f => readFactors f

/-! ## The maps -/

/-- invalid value (scale_grace_maps.py:273) -/
noncomputable def invalid : Val ℝ := some (-9999)

/-- a cell of a list of rows -/
def cellAt (d : List (List ℝ)) (i j : ℕ) : ℝ := (d.getD i []).getD j 0

/-- the series of maps (scale_grace_maps.py:472-478, 505-508) -/
def gridOf (k : Factors) (maps : List Maps.Map) : Sp ℝ :=
  { shape := ![k.lat.length, k.lon.length, maps.length], ndim3 := true
    data := fun i => some (cellAt ((maps[i 2]?.map (·.data)).getD []) (i 0) (i 1)), mask := fun _ => false, error := none
    lat := k.lat, lon := k.lon, time := maps.map fun m => m.time.headD 0, month := maps.map fun m => m.month.headD 0
    fill := none }

/-- the map of the errors (scale_grace_maps.py:571-577) -/
def deltaOf (k : Factors) (d : List (List ℝ)) : Sp ℝ :=
  { shape := ![k.lat.length, k.lon.length, 1], ndim3 := false, data := fun i => some (cellAt d (i 0) (i 1))
    mask := fun _ => false, error := none, lat := k.lat, lon := k.lon, time := [], month := [], fill := none }

open scoped Classical in
/-- `grid.scale(kfactor.data)` and `grid.replace_invalid(fill_value, mask=kfactor.mask)` (scale_grace_maps.py:511-512, 601-602) -/
noncomputable def scaled (k : Factors) (g : Sp ℝ) : Sp ℝ :=
  replaceInvalid (Spatial.scale g fun i => k.data.val (i 0) (i 1)) invalid (some fun i => k.mask (i 0) (i 1))

/-- `np.power(x, 0.5)`: NaN for negative numbers -/
noncomputable def root (x : Val ℝ) : Val ℝ := x.bind fun x => if x < 0 then none else some (Real.sqrt x)

open scoped Classical in
/-- `grid.sum(power=2.0).power(0.5)` (scale_grace_maps.py:539) -/
noncomputable def powerOf (g : Sp ℝ) : Sp ℝ :=
  { Spatial.copy (Spatial.sum g 2) with data := fun i => root ((Spatial.sum g 2).data i) }

/-- a floating point number with infinities (one suffices here) -/
inductive Ext
  | nan | inf | num (x : ℝ)

open scoped Classical in
/-- `x*np.power(y,-1)` -/
noncomputable def quotient (x y : Val ℝ) : Ext :=
  match x, y with
  | some x, some y => if y = 0 then (if x = 0 then .nan else .inf) else .num (x * y⁻¹)
  | _, _ => .nan

/-- the ratio of powers at a cell (scale_grace_maps.py:542-544): `scale` updates the mask, where NaN and masked cells get the fill
value -9999; `np.nan_to_num` turns infinities into zero afterwards -/
noncomputable def ratioAt (mask : Bool) (power magnitude : Val ℝ) : ℝ :=
  if mask then -9999
  else
    match quotient power magnitude with
    | .nan => -9999
    | .inf => 0
    | .num x => x

/-- leakage errors (scale_grace_maps.py:539-548) -/
noncomputable def leakage (k : Factors) (g : Sp ℝ) : Sp ℝ :=
  let p := powerOf g
  let data : Idx → Val ℝ := fun i =>
    vmap2 (· * ·) (k.error.val (i 0) (i 1)) (some (ratioAt (p.mask i) (p.data i) (k.magnitude.val (i 0) (i 1))))
  open scoped Classical in
  Spatial.updateMask { Spatial.copy g with
    shape := Function.update g.shape 2 1, ndim3 := false, data := data, mask := fun i => k.mask (i 0) (i 1) }

/-- the options of the names of the maps -/
structure Names where
  prefix_ : List Char
  units : List Char
  gw : List Char

/-- `'{0}{1}{2}_L{3:d}{4}{5}{6}_{7:03d}-{8:03d}.{9}'` (scale_grace_maps.py:258, 515-516, 551-552, 605-606) -/
def outName (n : Names) (kind : List Char) (r : Run) (first last : ℕ) : List Char :=
  n.prefix_ ++ kind ++ n.units ++ ['_', 'L'] ++ SpatialError.num 0 r.o.LMAX ++
    (if r.o.order ≠ r.o.LMAX then 'M' :: SpatialError.num 0 r.o.order else []) ++ n.gw ++
    (if r.o.DESTRIPE then ['_', 'F', 'L'] else []) ++ '_' :: SpatialError.num 3 first ++ '-' :: SpatialError.num 3 last ++
    '.' :: r.DATAFORM.suffix

/-- a file that is written: `date` tells whether it has dates -/
structure Out where
  name : List Char
  map : Sp ℝ
  date : Bool

/-- the three files (scale_grace_maps.py:511-618) -/
noncomputable def outputs (n : Names) (r : Run) (first last : ℕ) (k : Factors) (maps : List Maps.Map) (delta : List (List ℝ)) :
    List Out :=
  let g := scaled k (gridOf k maps)
  [⟨outName n [] r first last, g, true⟩,
   ⟨outName n "ERROR_".toList r first last, leakage k g, false⟩,
   ⟨outName n "DELTA_".toList r first last, scaled k (deltaOf k delta), true⟩]

/-- an exception of a shared stage -/
def lift {α : Type} : Except Maps.Err α → Except Err α
  | .ok a => .ok a
  | .error e => .error (.error (.maps e))

open scoped Classical in
/-- the maps of all months and of the errors (scale_grace_maps.py:472-598): `harmonic_summation` is called without minimum degree,
`truncate` of the errors with it -/
noncomputable def finish (eps scalef : ℝ) (n : Names) (r : Run) (factors : List ℝ) (k : Factors) (a gia removed : Harm ℝ)
    (d : Harm ℝ) (count : ℝ) (first last : ℕ) : Except Err (List Out) :=
  if ¬ (k.data.rows = k.lat.length ∧ k.data.cols = k.lon.length ∧ sameShape k.data k.error ∧ sameShape k.data k.magnitude) then
    .error .shape
  else
    match lift ((List.range a.month.length).mapM
        (monthMap eps scalef { r.o with LMIN := 0 } factors a gia removed k.lon k.lat)) with
    | .error e => .error e
    | .ok maps =>
      match errorGrid eps scalef r.o factors d count k.lon k.lat with
      | .error e => .error (.error e)
      | .ok g => .ok (outputs n r first last k maps g)

/-- `scale_grace_maps` (scale_grace_maps.py:210-625): the files with errors of coefficients afterwards and the maps.  With fields
to be removed the name `Ylms` is bound to a `harmonics` object when its `directory` is looked up (scale_grace_maps.py:411) -/
noncomputable def scaleMaps (eps scalef cutoff : ℝ) (erf : ℝ → ℝ) (tppf : ℝ → ℝ → ℝ) (fmt : ℝ → ℝ) (title reference : String)
    (n : Names) (r : Run) (grace : Harm ℝ) (meanFile : Option (Harm ℝ)) (giaRate : Harm ℝ) (removed : List (Harm ℝ))
    (dfactor : ℕ → ℝ) (scale : ScaleFile) (fs : List Char → Option CacheFile) :
    Except Err ((List Char → Option CacheFile) × List Out) :=
  match weights cutoff r.o.RAD r.o.LMAX with
  | none => .error .indexError
  | some wt =>
    match factorsOf scale with
    | .error e => .error e
    | .ok k =>
      match lift (anomaly grace meanFile) with
      | .error e => .error e
      | .ok a =>
        match lift (filtered r.o a) with
        | .error e => .error e
        | .ok a =>
          match lift (removedSum r.o a (zerosLike a) (removed.map .index)) with
          | .error e => .error e
          | .ok rem =>
            if removed ≠ [] then .error .attributeError
            else
              match a.month.head?, a.month.getLast? with
              | some m0, some m1 =>
                match deltaStep erf tppf fmt title reference r fs (deltaName r m0.toNat m1.toNat) a with
                | .error e => .error (.error e)
                | .ok (fs', d, count) =>
                  match finish eps scalef n r (factorList r.o.LMAX dfactor wt) k a (giaSeries giaRate a) rem d count m0.toNat
                      m1.toNat with
                  | .error e => .error e
                  | .ok out => .ok (fs', out)
              | _, _ => .error .indexError

end Verif.ScaleMaps
