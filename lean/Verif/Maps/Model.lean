import Verif.Harmonics.Model
import Verif.Synthesis.Model
import Verif.Destripe.Model
import Verif.SpatialIO.Format

/-!
# Model of `scripts/grace_spatial_maps.py` and `scripts/combine_harmonics.py`

From monthly spherical harmonic fields to monthly maps.  Exact real arithmetic.  The readers of the input files are modelled
elsewhere (`grace_input_months`: Verif.Input, GIA: Verif.GIA, files: Verif.HarmIO, ocean function: Verif.Ocean); here the
objects they return are arguments.  Attributes, logging and permissions are not modelled.
-/
namespace Verif.Maps
open Verif.Harmonics Verif.Synthesis

/-- exceptions -/
inductive Err
  | harm (e : Harmonics.Err) | indexError | attributeError | legendre | valueError
deriving DecidableEq

/-- an exception of the `harmonics` class -/
def lift {α : Type} : Except Harmonics.Err α → Except Err α
  | .ok a => .ok a
  | .error e => .error (.harm e)

/-- options of the programs.  `MMAX = 0` is "not given" in `grace_spatial_maps` (grace_spatial_maps.py:282); `ocean` is the
ocean function when the removed mass is redistributed -/
structure Opts where
  LMIN : ℕ
  LMAX : ℕ
  MMAX : ℕ
  RAD : ℝ
  DESTRIPE : Bool
  ocean : Option (Harm ℝ)

/-- the maximum order used (grace_spatial_maps.py:282) -/
def Opts.order (o : Opts) : ℕ := if o.MMAX = 0 then o.LMAX else o.MMAX

/-- smoothing weights (grace_spatial_maps.py:272-279, combine_harmonics.py:217-220); `none`: exception for `LMAX = 0` -/
noncomputable def weights (cutoff RAD : ℝ) (LMAX : ℕ) : Option (ℕ → ℝ) :=
  if RAD ≠ 0 then (gaussWeights RAD LMAX cutoff).map fun w l => 2 * Real.pi * w l else some fun _ => 1

/-- the fields after removing the static field (grace_spatial_maps.py:304-313) -/
noncomputable def anomaly (grace : Harm ℝ) : Option (Harm ℝ) → Except Err (Harm ℝ)
  | some mean => lift (subtract grace mean)
  | none => .ok (mean grace true (List.range (grace.nt.getD 1))).2

/-- `harmonics.destripe` with the defaults of the filter (harmonics.py:1793-1829): each date is filtered with
`ROUND = True`, `NARROW = False`; one row of degrees raises an exception -/
noncomputable def destripeHarm (h : Harm ℝ) : Except Err (Harm ℝ) :=
  if h.lmax = 0 then .error .valueError
  else .ok { h with
    clm := fun l m t => Destripe.destripeColumn true false h.lmax h.mmax (fun l m => h.clm l m t) l m
    slm := fun l m t => Destripe.destripeColumn true false h.lmax h.mmax (fun l m => h.slm l m t) l m }

/-- the optional filter (grace_spatial_maps.py:316-323, 393-394) -/
noncomputable def filtered (o : Opts) (h : Harm ℝ) : Except Err (Harm ℝ) :=
  if o.DESTRIPE then destripeHarm h else .ok h

/-- GIA at the dates of the fields, with their months (grace_spatial_maps.py:336-337) -/
noncomputable def giaSeries (rate grace : Harm ℝ) : Harm ℝ :=
  { drift rate grace.time (epoch := 2003.3) with month := grace.month }

/-- mass spread uniformly over the ocean (grace_spatial_maps.py:380-391, combine_harmonics.py:196-212): the ratio is computed
once, before the coefficients change.  A field without date axis raises `IndexError` at `clm[0,0,:]` -/
noncomputable def redistribute (LMAX MMAX : ℕ) (ocean h : Harm ℝ) : Except Err (Harm ℝ) :=
  match h.nt with
  | none => .error .indexError
  | some _ =>
    let ratio : ℕ → ℝ := fun t => h.clm 0 0 t / ocean.clm 0 0 0
    let c := updateLoop (lmPairs LMAX MMAX) (fun p (x : ℕ → ℝ) t => x t - ratio t * ocean.clm p.1 p.2 0)
      (fun p => h.clm p.1 p.2)
    let s := updateLoop (lmPairs LMAX MMAX) (fun p (x : ℕ → ℝ) t => x t - ratio t * ocean.slm p.1 p.2 0)
      (fun p => h.slm p.1 p.2)
    .ok { h with clm := fun l m => c (l, m), slm := fun l m => s (l, m) }

/-- the optional redistribution -/
noncomputable def oceanStep (LMAX MMAX : ℕ) (ocean : Option (Harm ℝ)) (h : Harm ℝ) : Except Err (Harm ℝ) :=
  match ocean with
  | some oc => redistribute LMAX MMAX oc h
  | none => .ok h

/-- a field to be removed: read from one data file or from an index of files -/
inductive Source
  | dataFile (h : Harm ℝ)
  | index (h : Harm ℝ)

/-- `zip(REMOVE_FILES, REMOVE_FORMAT)` after extending the formats (grace_spatial_maps.py:356-360) -/
def pairFormats {A B : Type} (files : List A) (formats : List B) : List (A × B) :=
  files.zip (if formats.length < files.length then (List.replicate files.length formats).flatten else formats)

/-- one removed field on the months of the data (grace_spatial_maps.py:360-394).  For a single data file the program asks for
`Ylms.name`, which no `harmonics` object has -/
noncomputable def removedField (o : Opts) (grace : Harm ℝ) : Source → Except Err (Harm ℝ)
  | .dataFile _ => .error .attributeError
  | .index h =>
    match lift (subset h grace.month) with
    | .error e => .error e
    | .ok s =>
      match oceanStep o.LMAX o.order o.ocean (truncate s (some o.LMAX) 0 (some o.order)) with
      | .error e => .error e
      | .ok s => filtered o s

/-- `zeros_like` with the dates of the data (grace_spatial_maps.py:352-354) -/
def zerosLike (h : Harm ℝ) : Harm ℝ := { h with clm := fun _ _ _ => 0, slm := fun _ _ _ => 0 }

/-- one pass of the loop over the removed files (grace_spatial_maps.py:360-398) -/
noncomputable def removeStep (o : Opts) (grace acc : Harm ℝ) (s : Source) : Except Err (Harm ℝ) :=
  match removedField o grace s with
  | .error e => .error e
  | .ok h => lift (add acc h)

/-- the loop over the removed files -/
noncomputable def removedSum (o : Opts) (grace : Harm ℝ) : Harm ℝ → List Source → Except Err (Harm ℝ)
  | acc, [] => .ok acc
  | acc, s :: rest =>
    match removeStep o grace acc s with
    | .error e => .error e
    | .ok acc => removedSum o grace acc rest

/-- `np.int64((360.0/d)+1.0)` values from `a` with step `h` (grace_spatial_maps.py:407-410) -/
def closedAxis (a h : ℚ) (range d : ℚ) : List ℚ := (List.range (⌊range / d⌋ + 1).toNat).map fun i : ℕ => a + i * h

/-- `np.arange(a, b, h)` -/
def arange (a b h : ℚ) : List ℚ := (List.range ⌈(b - a) / h⌉.toNat).map fun i : ℕ => a + i * h

/-- the grid choices -/
inductive Interval
  | edges | centres | bounds (minlon maxlon minlat maxlat : ℚ)

/-- longitudes and latitudes of the maps (grace_spatial_maps.py:401-424; combine_harmonics.py:229-251 starts at longitude
`west = 0` instead of `-180`) -/
def axes (west dlon dlat : ℚ) : Interval → List ℚ × List ℚ
  | .edges => (closedAxis west dlon 360 dlon, closedAxis 90 (-dlat) 180 dlat)
  | .centres => (arange (west + dlon / 2) (west + 360 + dlon / 2) dlon,
      arange (90 - dlat / 2) (-90 - dlat / 2) (-dlat))
  | .bounds minlon maxlon minlat maxlat => (arange (minlon + dlon / 2) (maxlon + dlon / 2) dlon,
      arange (maxlat - dlat / 2) (minlat - dlat / 2) (-dlat))

/-- the field of one date on the grid, rows are latitudes (`harmonic_summation(...).T` with the Legendre functions of
`plm_holmes`, grace_spatial_maps.py:426-428, 462-464, combine_harmonics.py:276-278, 285-286).  The columns read must exist in
the arrays and in the table of Legendre functions -/
noncomputable def synthesis (eps scalef : ℝ) (LMIN LMAX MMAX : ℕ) (h : Harm ℝ) (lons lats : List ℚ) :
    Except Err (List (List ℝ)) :=
  if LMAX < 2 then .error .legendre
  else if h.mmax < MMAX ∨ LMAX < MMAX then .error .indexError
  else if h.lmax < LMAX then .error .valueError
  else
    .ok (lats.map fun lat : ℚ => lons.map fun lon : ℚ =>
      (harmonicSummation eps scalef (h.lmax + 1) LMIN LMAX (some MMAX) none (fun l m => h.clm l m 0)
        (fun l m => h.slm l m 0) (lon : ℝ) (lat : ℝ)).getD 0)

/-- a map written to a file -/
structure Map where
  data : List (List ℝ)
  time : List ℚ
  month : List ℤ

/-- the degree dependent factors `dfactor*wt` -/
noncomputable def factorList (LMAX : ℕ) (dfactor wt : ℕ → ℝ) : List ℝ :=
  (List.range (LMAX + 1)).map fun l : ℕ => dfactor l * wt l

/-- one pass of the loop over the months (grace_spatial_maps.py:449-469) -/
noncomputable def monthMap (eps scalef : ℝ) (o : Opts) (factors : List ℝ) (grace gia removed : Harm ℝ) (lons lats : List ℚ)
    (i : ℕ) : Except Err Map :=
  match index grace i, index gia i, index removed i with
  | .ok y, .ok g, .ok r =>
    match subtract y g with
    | .error e => .error (.harm e)
    | .ok y =>
      match subtract y r with
      | .error e => .error (.harm e)
      | .ok y =>
        match convolve y factors with
        | .error e => .error (.harm e)
        | .ok y =>
          match synthesis eps scalef o.LMIN o.LMAX o.order y lons lats with
          | .error e => .error e
          | .ok d => .ok ⟨d, y.time, y.month⟩
  | _, _, _ => .error .indexError

/-- the maps of `grace_spatial_maps`, in order (grace_spatial_maps.py:268-478) -/
noncomputable def spatialMaps (eps scalef cutoff : ℝ) (o : Opts) (grace : Harm ℝ) (meanFile : Option (Harm ℝ))
    (giaRate : Harm ℝ) (sources : List Source) (dfactor : ℕ → ℝ) (lons lats : List ℚ) : Except Err (List Map) :=
  match weights cutoff o.RAD o.LMAX with
  | none => .error .indexError
  | some wt =>
    match anomaly grace meanFile with
    | .error e => .error e
    | .ok a =>
      match filtered o a with
      | .error e => .error e
      | .ok a =>
        match removedSum o a (zerosLike a) sources with
        | .error e => .error e
        | .ok r =>
          (List.range a.month.length).mapM
            (monthMap eps scalef o (factorList o.LMAX dfactor wt) a (giaSeries giaRate a) r lons lats)

/-- name of the file of a month, `'{0}{1}_L{2:d}{3}{4}{5}_{6:03d}.{7}'` (grace_spatial_maps.py:446, 472-474), for months
from 0 on; the strings for the smoothing radius and the units are given -/
def fileName (FILE_PREFIX units gw suffix : List Char) (o : Opts) (month : ℕ) : List Char :=
  let num (w n : ℕ) : List Char := List.replicate (w - (SpatialIO.natDigits n).length) '0' ++
    (SpatialIO.natDigits n).map SLR.dchar
  FILE_PREFIX ++ units ++ ['_', 'L'] ++ num 0 o.LMAX ++ (if o.order ≠ o.LMAX then 'M' :: num 0 o.order else []) ++ gw ++
    (if o.DESTRIPE then ['_', 'F', 'L'] else []) ++ '_' :: num 3 month ++ '.' :: suffix

/-! ## combine_harmonics.py -/

/-- `expand_dims` (harmonics.py:1377-1400): a single field becomes a series of one date -/
def expandDims (h : Harm ℝ) : Harm ℝ := match h.nt with | none => { h with nt := some 1 } | some _ => h

/-- the optional mean file (combine_harmonics.py:176-179).  `indexed`: the input is an index file; then the mean file is
read with a format `from_file` does not know and `None` is subtracted -/
noncomputable def combineMean (indexed : Bool) (meanFile : Option (Harm ℝ)) (h : Harm ℝ) : Except Err (Harm ℝ) :=
  match meanFile with
  | some mf => if indexed then .error .attributeError else lift (subtract h mf)
  | none => .ok h

/-- one date (combine_harmonics.py:281-286): `harmonic_summation` is called without maximum order, so all orders up to
`LMAX` are read -/
noncomputable def combineDate (eps scalef : ℝ) (LMAX : ℕ) (factors : List ℝ) (h : Harm ℝ) (lons lats : List ℚ) (t : ℕ) :
    Except Err (List (List ℝ)) :=
  match index h t with
  | .error e => .error (.harm e)
  | .ok y =>
    match convolve y factors with
    | .error e => .error (.harm e)
    | .ok y => synthesis eps scalef 0 LMAX LMAX y lons lats

/-- `combine_harmonics` (combine_harmonics.py:141-291): the maps of the dates.  `MMAX = none` is `LMAX` -/
noncomputable def combine (eps scalef cutoff : ℝ) (LMAX : ℕ) (MMAX : Option ℕ) (RAD : ℝ) (destripe indexed : Bool)
    (ocean meanFile : Option (Harm ℝ)) (dfactor : ℕ → ℝ) (h : Harm ℝ) (lons lats : List ℚ) :
    Except Err (List (List (List ℝ))) :=
  match combineMean indexed meanFile (expandDims (truncate h (some LMAX) 0 (some (MMAX.getD LMAX)))) with
  | .error e => .error e
  | .ok h =>
    match oceanStep LMAX (MMAX.getD LMAX) ocean h with
    | .error e => .error e
    | .ok h =>
      match filtered ⟨0, LMAX, MMAX.getD LMAX, RAD, destripe, ocean⟩ h with
      | .error e => .error e
      | .ok h =>
        match weights cutoff RAD LMAX with
        | none => .error .indexError
        | some wt =>
          if LMAX < 2 then .error .legendre
          else (List.range h.time.length).mapM (combineDate eps scalef LMAX (factorList LMAX dfactor wt) h lons lats)

end Verif.Maps
