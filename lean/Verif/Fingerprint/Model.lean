import Verif.SeaLevel.Model
import Verif.Maps.Model

/-!
# Model of `scripts/run_sea_level_equation.py`

A load file is turned into maps of sea level change over the grid of a land-sea mask.  The solver is that of Verif.SeaLevel, objects
are those of Verif.Harmonics.  Exact real arithmetic.  The objects read from the two files and the Love numbers are given; attributes,
logs and permissions are not modelled, nor is the rounding to four decimals in text files.
-/
namespace Verif.Fingerprint
open Verif.Harmonics Verif.SeaLevel Verif.Analysis

/-- the land-sea mask as read (run_sea_level_equation.py:160-161): axes and codes, rows are latitudes -/
structure Mask where
  lon : List ℚ
  lat : List ℚ
  code : ℕ → ℕ → ℚ

/-- arguments of the program -/
structure Opts where
  LMAX : ℕ
  hl : ℕ → ℝ
  kl : ℕ → ℝ
  POLAR : Bool
  BODY : BodyArg
  FLUID : FluidArg
  ITERATIONS : ℤ
  DATE : Bool

/-- `land_function` (run_sea_level_equation.py:162-170): rows are latitudes -/
noncomputable def landFunction (m : Mask) (j i : ℕ) : ℝ := if 1 ≤ m.code j i ∧ m.code j i ≤ 3 then 1 else 0

/-- arguments of the solver (run_sea_level_equation.py:217-222; sea_level_equation.py:130-132): the land function is transposed -/
noncomputable def solverArgs (o : Opts) (m : Mask) (PLM : Option (ℕ → ℕ → ℕ → ℝ)) : Args where
  nphi := m.lon.length
  nth := m.lat.length
  glon := fun i => ((m.lon.getD i 0 : ℚ) : ℝ)
  glat := fun j => ((m.lat.getD j 0 : ℚ) : ℝ)
  land := fun i j => landFunction m j i
  LMAX := o.LMAX
  hl := o.hl
  kl := o.kl
  POLAR := o.POLAR
  BODY := o.BODY
  FLUID := o.FLUID
  ITERATIONS := o.ITERATIONS
  PLM := PLM
  FILL := 0
  SCALE := 1 / 10 ^ 280

/-- `load_Ylms.index(i, date=DATE)` (harmonics.py:1521-1550): dates are read only if there are any -/
def slice (DATE : Bool) (h : Harm ℝ) (i : ℕ) : Except Err (Harm ℝ) :=
  if DATE then index h i
  else match h.nt with
    | none => .error .indexError
    | some n =>
      if i < n then
        .ok { lmax := h.lmax, mmax := h.mmax, nt := none, clm := fun l m _ => h.clm l m i, slm := fun l m _ => h.slm l m i,
              time := [], month := [] }
      else .error .indexError

/-- the maps: rows are latitudes -/
structure Sea where
  lon : List ℚ
  lat : List ℚ
  nt : Option ℕ
  data : ℕ → ℕ → ℕ → ℝ
  mask : ℕ → ℕ → ℕ → Prop
  time : Option (List ℚ)

/-- one pass of the loop (run_sea_level_equation.py:215-222): the map of one date -/
noncomputable def mapOf (E : Units.Earth) (tol scalef : ℝ) (o : Opts) (m : Mask) (PLM : ℕ → ℕ → ℕ → ℝ) (h : Harm ℝ) (i : ℕ) :
    Option (ℕ → ℕ → ℝ) :=
  match slice o.DATE h i with
  | .error _ => none
  | .ok y =>
    (seaLevel E tol scalef (solverArgs o m (some PLM)) ⟨fun l k => y.clm l k 0, fun l k => y.slm l k 0⟩).map fun s j i => s i j

/-- the loop over the dates (run_sea_level_equation.py:211-223) -/
noncomputable def mapsOf (E : Units.Earth) (tol scalef : ℝ) (o : Opts) (m : Mask) (PLM : ℕ → ℕ → ℕ → ℝ) (h : Harm ℝ) (nt : ℕ) :
    Option (List (ℕ → ℕ → ℝ)) :=
  (List.range nt).mapM (mapOf E tol scalef o m PLM h)

/-- `squeeze` (spatial.py:1291-1306) of maps over a grid of at least two by two cells -/
def squeezeNt (nt : ℕ) : Option ℕ := if nt = 1 then none else some nt

/-- the maps (run_sea_level_equation.py:196-229); `none`: an exception, or fields without finite values -/
noncomputable def fingerprints (E : Units.Earth) (tol scalef : ℝ) (o : Opts) (m : Mask) (load : Harm ℝ) : Option Sea :=
  let h := Maps.expandDims (truncate load (some o.LMAX) 0 (some o.LMAX))
  let nt := h.nt.getD 1
  match plmAll tol scalef o.LMAX o.LMAX (fun j => ((m.lat.getD j 0 : ℚ) : ℝ)) none with
  | none => none
  | some PLM =>
    match mapsOf E tol scalef o m PLM h nt with
    | none => none
    | some fs =>
      let data : ℕ → ℕ → ℕ → ℝ := fun j i t => (fs.getD t fun _ _ => 0) j i
      some { lon := m.lon, lat := m.lat, nt := squeezeNt nt, data := data, mask := fun j i t => data j i t = 0
             time := if o.DATE then some h.time else none }

/-! ## Output -/

/-- `DATAFORM` -/
inductive Form where
  | ascii | netCDF4 | HDF5
deriving DecidableEq

/-- a line of a text file: longitude, latitude, value, and the date if there is one -/
structure Row where
  lon : ℚ
  lat : ℚ
  value : ℝ
  time : Option ℚ

/-- what an output file holds; `broken`: opened, then an exception -/
inductive Out where
  | text (rows : List Row)
  | grid (dims : ℕ) (nt : ℕ) (data : ℕ → ℕ → ℕ → ℝ) (time : Option (List ℚ))
  | broken

open Classical in
/-- `to_ascii` with fill value zero (run_sea_level_equation.py:239-244; spatial.py:746-764): a series fails when the indices are
unpacked; with dates the time is that of the single field -/
noncomputable def toAscii (o : Opts) (s : Sea) : Out :=
  match s.nt with
  | some _ => .broken
  | none => .text ((List.range s.lat.length).flatMap fun j => ((List.range s.lon.length).filter fun i =>
      decide (s.data j i 0 ≠ 0 ∧ ¬ s.mask j i 0)).map fun i =>
        ⟨s.lon.getD i 0, s.lat.getD j 0, s.data j i 0, if o.DATE then some ((s.time.getD []).getD 0 0) else none⟩)

/-- `to_netCDF4` (spatial.py:766-908): no fill value, so the array is written as it is.  With dates it gets a third dimension; a series
without dates does not fit into the two dimensions of the variable -/
noncomputable def toNetCDF (o : Opts) (s : Sea) : Out :=
  if o.DATE then .grid 3 (s.nt.getD 1) s.data s.time
  else match s.nt with
    | some _ => .broken
    | none => .grid 2 1 s.data none

/-- `to_HDF5` (spatial.py:910-1050): as before, but a series without dates is written -/
noncomputable def toHDF5 (o : Opts) (s : Sea) : Out :=
  if o.DATE then .grid 3 (s.nt.getD 1) s.data s.time
  else match s.nt with
    | some n => .grid 3 n s.data none
    | none => .grid 2 1 s.data none

/-- `run_sea_level_equation` (run_sea_level_equation.py:132-252); `none`: nothing is written, or nothing finite -/
noncomputable def run (E : Units.Earth) (tol scalef : ℝ) (f : Form) (o : Opts) (m : Mask) (load : Harm ℝ) : Option Out :=
  (fingerprints E tol scalef o m load).map fun s =>
    match f with
    | .ascii => toAscii o s
    | .netCDF4 => toNetCDF o s
    | .HDF5 => toHDF5 o s

end Verif.Fingerprint
