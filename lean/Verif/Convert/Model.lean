import Verif.SpatialIO.Dataset
import Verif.HarmIO.Dataset
import Verif.Analysis.Model

/-!
# Model of `scripts/convert_harmonics.py`

A file of maps is converted to a file of spherical harmonic coefficients.  Reading and writing of netCDF4 and HDF5 files are
those of Verif.SpatialIO and Verif.HarmIO, the integration that of Verif.Analysis.  Exact real arithmetic.  Love numbers and
global attributes are given; permissions and logs are not modelled.
-/
namespace Verif.Convert
open Verif.Analysis Verif.Units Verif.Harmonics
open Verif.SpatialIO.Data (Sp Arr expandDims updateMask)

/-- exceptions; `nan` stands for a run whose output consists of NaN because a cell is NaN and the file has no fill value -/
inductive Err
  | maps (e : SpatialIO.Data.Err) | output (e : HarmIO.Data.Err) | list (e : Harmonics.Err)
  | valueError | indexError | stokes | nan | typeError

/-- `input_spatial.replace_invalid(0.0)` (convert_harmonics.py:157; spatial.py:1621-1648) -/
def replaceZero (o : Sp) : Sp :=
  let o1 := updateMask o
  { o1 with fill := some (some 0)
            data := { o1.data with flat := List.zipWith (fun x b => if b then some 0 else x) o1.data.flat o1.mask.flat } }

/-- a latitude or longitude; NaN coordinates are not modelled -/
noncomputable def axis (a : Arr (Option ℚ)) (i : ℕ) : ℝ := (((a.flat.getD i none).getD 0 : ℚ) : ℝ)

/-- a cell of an array with three dimensions -/
def cell (o : Sp) (nlon nt j i t : ℕ) : Option ℚ := o.data.flat.getD ((j * nlon + i) * nt + t) none

/-- `spatial_data.data.T` (convert_harmonics.py:187; spatial.py:1728), `none` when a cell is NaN -/
noncomputable def mapAt (o : Sp) (nlat nlon nt t : ℕ) : Option Mat :=
  if ∃ j < nlat, ∃ i < nlon, cell o nlon nt j i t = none then none
  else some ⟨nlon, nlat, fun i j => (((cell o nlon nt j i t).getD 0 : ℚ) : ℝ)⟩

/-- a date; NaN dates are not modelled -/
def timeAt (o : Sp) (t : ℕ) : ℚ := (o.time.flat.getD t none).getD 0

/-- the iterator and one conversion (convert_harmonics.py:184-196; spatial.py:1715-1754).  Without dates the array of dates has
the single entry `None`, so that the second map of a series is beyond its end.  The Legendre functions given to `gen_stokes`
(convert_harmonics.py:178-179) are those that it would compute itself -/
noncomputable def oneMap (E : Earth) (eps scalef : ℝ) (LMAX : ℕ) (MMAX : Option ℕ) (u : UnitArg) (kl : ℕ → ℝ) (date : Bool)
    (o : Sp) (nlat nlon nt t : ℕ) : Except Err (Harm ℝ) :=
  if o.time.shape.headD 0 ≤ t then .error .indexError
  else
    match mapAt o nlat nlon nt t with
    | none => .error .nan
    | some d =>
      match genStokes E eps scalef d o.lon.flat.length o.lat.flat.length (axis o.lon) (axis o.lat) 0 LMAX MMAX u none kl with
      | none => .error .stokes
      | some c => .ok { lmax := LMAX, mmax := MMAX.getD LMAX, nt := none, clm := fun l m _ => c.clm l m, slm := fun l m _ => c.slm l m
                        time := if date then [timeAt o t] else []
                        month := if date then [Time.calendarToGrace (timeAt o t)] else [] }

/-- `harmonics().from_list(Ylms_list, date=DATE)` (convert_harmonics.py:199; harmonics.py:622-680): without dates the objects
are not sorted -/
noncomputable def collect (sort : List ℚ → List ℕ) (date : Bool) (ys : List (Harm ℝ)) : Except Err (Harm ℝ) :=
  if date then
    match fromList ys (sort (ys.map fun y => y.time.headD 0)) with
    | .ok h => .ok h
    | .error e => .error (.list e)
  else
    match fromList ys (List.range ys.length) with
    | .ok h => .ok { h with time := [], month := [] }
    | .error e => .error (.list e)

/-- the maps after reading (convert_harmonics.py:141-159): three dimensions, missing cells zero -/
def prepared (date : Bool) (f : SpatialIO.Data.File) : Except Err Sp :=
  match SpatialIO.Data.read {} date f with
  | .error e => .error (.maps e)
  | .ok o => .ok (replaceZero (expandDims o))

/-- the series of coefficients (convert_harmonics.py:157-199) -/
noncomputable def coefficients (E : Earth) (eps scalef : ℝ) (LMAX : ℕ) (MMAX : Option ℕ) (u : UnitArg) (kl : ℕ → ℝ)
    (sort : List ℚ → List ℕ) (date : Bool) (o : Sp) : Except Err (Harm ℝ) :=
  match o.data.shape with
  | [nlat, nlon, nt] =>
    match (List.range nt).mapM (oneMap E eps scalef LMAX MMAX u kl date o nlat nlon nt) with
    | .error e => .error e
    | .ok ys => collect sort date ys
  | _ => .error .valueError

/-- `convert_harmonics` with netCDF4 or HDF5 files (convert_harmonics.py:103-206); `old` is the existing output file, `root` are the
global attributes -/
noncomputable def convert (hdf5 : Bool) (E : Earth) (eps scalef : ℝ) (LMAX : ℕ) (MMAX : Option ℕ) (u : UnitArg) (kl : ℕ → ℝ)
    (sort : List ℚ → List ℕ) (date : Bool) (root : SpatialIO.Data.Attrs) (f : SpatialIO.Data.File)
    (old : Option (HarmIO.Data.File ℝ)) : Except Err (HarmIO.Data.File ℝ) :=
  match prepared date f with
  | .error e => .error e
  | .ok o =>
    match coefficients E eps scalef LMAX MMAX u kl sort date o with
    | .error e => .error e
    | .ok h =>
      match HarmIO.Data.write hdf5 { date := date } old ⟨h, root⟩ with
      | .error e => .error (.output e)
      | .ok (_, file) => .ok file

/-! ## Text -/

/-- `file_format.format(l, m, self.clm[l,m], ...)` (harmonics.py:769-777) of an object made by `from_list`: the coefficients of a
degree and order are an array with one dimension, which has no format `+21.12e`.  The first coefficient always exists -/
def textOf (h : Harm ℝ) : Except Err (List (List Char)) :=
  match h.nt with
  | some _ => .error .typeError
  | none => .ok []

/-- `convert_harmonics` with text files: the maps are given after reading (a failure of reading is `none`) -/
noncomputable def convertText (E : Earth) (eps scalef : ℝ) (LMAX : ℕ) (MMAX : Option ℕ) (u : UnitArg) (kl : ℕ → ℝ)
    (sort : List ℚ → List ℕ) (date : Bool) (o : Option Sp) : Except Err (List (List Char)) :=
  match o with
  | none => .error .valueError
  | some o =>
    match coefficients E eps scalef LMAX MMAX u kl sort date o with
    | .error e => .error e
    | .ok h => textOf h

end Verif.Convert
