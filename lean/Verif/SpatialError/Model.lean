import Verif.Maps.Model
import Verif.HarmIO.Index
import Verif.TimeSeries.SmoothModel

/-!
# Model of `scripts/grace_spatial_error.py`

Error maps from the noise of smoothed series of coefficients, with the file in which the errors of the coefficients are kept
between runs.  Exact real arithmetic.  The monthly fields, the optional mean file, the degree dependent unit factors and the
grid (same choices as in Verif.Maps) are arguments.  Attributes, logging and permissions are not modelled, nor the files left
behind by a run which ends with an exception.
-/
namespace Verif.SpatialError
open Verif.Harmonics Verif.Synthesis Verif.Maps Verif.TimeSeries

/-- exceptions: of the stages shared with `grace_spatial_maps`, of `smooth`, of files, division by zero, a series without months -/
inductive Err
  | maps (e : Maps.Err) | smooth | file | zeroDivision | indexError | legendre

/-- format of the files -/
inductive Fmt
  | ascii | netCDF4 | HDF5
deriving DecidableEq

/-- `suffix` (grace_spatial_error.py:244) -/
def Fmt.suffix : Fmt → List Char
  | .ascii => ['t', 'x', 't'] | .netCDF4 => ['n', 'c'] | .HDF5 => ['H', '5']

/-- a program run: product, processing options and the flag for the atmospheric jumps, which appears in names only -/
structure Run where
  PROC : List Char
  DREL : List Char
  DSET : List Char
  ATM : Bool
  DATAFORM : Fmt
  o : Maps.Opts

/-- the half width of the smoothing windows (grace_spatial_error.py:332-338) -/
def halfWidth (PROC DREL : List Char) : ℕ :=
  if PROC = ['C', 'N', 'E', 'S'] ∧ DREL ∈ [['R', 'L', '0', '1'], ['R', 'L', '0', '2']] then 19 else 6

/-- zero padded number -/
def num (w n : ℕ) : List Char :=
  List.replicate (w - (SpatialIO.natDigits n).length) '0' ++ (SpatialIO.natDigits n).map SLR.dchar

/-- name of the file with the errors of the coefficients,
`'{0}_{1}_{2}_DELTA_CLM_L{3:d}{4}{5}{6}_{7:03d}-{8:03d}.{9}'` (grace_spatial_error.py:313-317), for months from 0 on -/
def deltaName (r : Run) (first last : ℕ) : List Char :=
  r.PROC ++ '_' :: r.DREL ++ '_' :: r.DSET ++ ['_', 'D', 'E', 'L', 'T', 'A', '_', 'C', 'L', 'M', '_', 'L'] ++ num 0 r.o.LMAX ++
    (if r.o.order ≠ r.o.LMAX then 'M' :: num 0 r.o.order else []) ++ (if r.o.DESTRIPE then ['_', 'F', 'L'] else []) ++
    (if r.ATM then ['_', 'w', 'A', 'T', 'M'] else []) ++ '_' :: num 3 first ++ '-' :: num 3 last ++ '.' :: r.DATAFORM.suffix

/-- contents of a file with the errors of the coefficients -/
inductive CacheFile
  | ascii (lines : List (Line ℝ)) (date : ℚ)
  | data (f : HarmIO.Data.File ℝ)

/-- `to_file(DELTA_FILE, format=DATAFORM, title=..., reference=...)` (grace_spatial_error.py:357-364) of a single field with its
date.  `fmt` is the rounding of a coefficient by the text format; text files hold the date with four decimals and no month -/
noncomputable def cacheWrite (fmt : ℝ → ℝ) (title reference : String) (F : Fmt) (h : Harm ℝ) : Except Err CacheFile :=
  match F with
  | .ascii =>
    match h.time with
    | [t] => .ok (.ascii (toAscii fmt h) (SpatialIO.roundTo 4 t))
    | _ => .error .file
  | .netCDF4 => match HarmIO.Data.dataWriter false { title := some title, reference := some reference } h none with
    | .ok f => .ok (.data f)
    | .error _ => .error .file
  | .HDF5 => match HarmIO.Data.dataWriter true { title := some title, reference := some reference } h none with
    | .ok f => .ok (.data f)
    | .error _ => .error .file

/-- `from_file(DELTA_FILE, format=DATAFORM)` (grace_spatial_error.py:371-372); the month of a text file is that of its date -/
noncomputable def cacheRead : CacheFile → Except Err (Harm ℝ)
  | .ascii lines date => .ok { fromAscii lines with time := [date], month := [Time.calendarToGrace date] }
  | .data f => match HarmIO.Data.dataReader f with
    | .ok h => .ok h
    | .error _ => .error .file

/-- the dates as real numbers -/
def times (h : Harm ℝ) (t : ℕ) : ℝ := ((h.time.getD t 0 : ℚ) : ℝ)

/-- `smooth(GRACE_Ylms.time, val1[l,m,:], HFWTH=HFWTH)` with the defaults of `smooth` (grace_spatial_error.py:345-347) -/
noncomputable def smoothed (erf : ℝ → ℝ) (tppf : ℝ → ℝ → ℝ) (H : ℕ) (a : Harm ℝ) (d : ℕ → ℝ) : Option Loess :=
  smoothLoess erf tppf a.time.length H (times a) d 0 {}

/-- `np.sqrt(np.sum(smth['noise']**2)/nsmth)` (grace_spatial_error.py:349-354) -/
noncomputable def rms (L : Loess) : ℝ := Real.sqrt (((List.range L.N).map fun i => L.noise i ^ 2).sum / L.N)

open scoped Classical in
/-- the errors of the coefficients and the number of smoothed points (grace_spatial_error.py:326-364); `month` holds the number
of points and `time` the mean time.  Every series must be smoothed without exception.  Without smoothed points the later
`1.0/nsmth` fails -/
noncomputable def deltaField (erf : ℝ → ℝ) (tppf : ℝ → ℝ → ℝ) (H LMAX MMAX : ℕ) (a : Harm ℝ) : Except Err (Harm ℝ) :=
  if ∃ p ∈ lmPairs LMAX MMAX, smoothed erf tppf H a (a.clm p.1 p.2) = none ∨ smoothed erf tppf H a (a.slm p.1 p.2) = none then
    .error .smooth
  else if a.time.length - 2 * H = 0 then .error .zeroDivision
  else
    let c := rowLoop (lmPairs LMAX MMAX) id (fun p => ((smoothed erf tppf H a (a.clm p.1 p.2)).map rms).getD 0) (fun _ => 0)
    let s := rowLoop (lmPairs LMAX MMAX) id (fun p => ((smoothed erf tppf H a (a.slm p.1 p.2)).map rms).getD 0) (fun _ => 0)
    let n := a.time.length - 2 * H
    .ok { lmax := LMAX, mmax := MMAX, nt := none, clm := fun l m _ => c (l, m), slm := fun l m _ => s (l, m)
          time := [((List.range n).map fun i : ℕ => a.time.getD (i + H) 0).sum / n], month := [(n : ℤ)] }

/-- the map of the errors (grace_spatial_error.py:427-457): degrees and orders are cut, the errors are multiplied by the degree
dependent factors, squared and divided by the number of points; squares of Legendre functions and of cosines and sines -/
noncomputable def errorGrid (eps scalef : ℝ) (o : Maps.Opts) (factors : List ℝ) (delta : Harm ℝ) (nsmth : ℝ) (lons lats : List ℚ) :
    Except Err (List (List ℝ)) :=
  if o.LMAX < 2 then .error .legendre
  else if o.LMAX < o.order then .error .indexError
  else
    match convolve (truncate delta (some o.LMAX) o.LMIN (some o.order)) factors with
    | .error e => .error (.maps (.harm e))
    | .ok y =>
      let y := scale (power y 2) (1 / nsmth)
      .ok (lats.map fun lat : ℚ =>
        let p := (usePLM eps scalef o.LMAX (lat : ℝ) none).getD fun _ _ => 0
        let dcos := fun m => ((List.range (o.LMAX + 1)).map fun l => p l m ^ 2 * y.clm l m 0).sum
        let dsin := fun m => ((List.range (o.LMAX + 1)).map fun l => p l m ^ 2 * y.slm l m 0).sum
        lons.map fun lon : ℚ =>
          let phi := (lon : ℝ) * Real.pi / 180
          Real.sqrt (((List.range (o.order + 1)).map fun m : ℕ => Real.cos (m * phi) ^ 2 * dcos m).sum +
            ((List.range (o.order + 1)).map fun m : ℕ => Real.sin (m * phi) ^ 2 * dsin m).sum))

/-- the stored number of points when the file is read (grace_spatial_error.py:373-376).  Zero would give infinities, taken as
an exception here -/
def storedCount (h : Harm ℝ) : Except Err ℝ :=
  match h.month with
  | [k] => if k = 0 then .error .zeroDivision else .ok (k : ℝ)
  | _ => .error .file

/-- the errors of the coefficients, from the file if it exists (grace_spatial_error.py:318-376): files afterwards, errors and
number of points -/
noncomputable def deltaStep (erf : ℝ → ℝ) (tppf : ℝ → ℝ → ℝ) (fmt : ℝ → ℝ) (title reference : String) (r : Run)
    (fs : List Char → Option CacheFile) (name : List Char) (a : Harm ℝ) :
    Except Err ((List Char → Option CacheFile) × Harm ℝ × ℝ) :=
  match fs name with
  | none =>
    match deltaField erf tppf (halfWidth r.PROC r.DREL) r.o.LMAX r.o.order a with
    | .error e => .error e
    | .ok d =>
      match cacheWrite fmt title reference r.DATAFORM d with
      | .error e => .error e
      | .ok f => .ok (Function.update fs name (some f), d, ((a.time.length - 2 * halfWidth r.PROC r.DREL : ℕ) : ℝ))
  | some f =>
    match cacheRead f with
    | .error e => .error e
    | .ok h =>
      match storedCount h with
      | .error e => .error e
      | .ok k => .ok (fs, truncate h (some r.o.LMAX) 0 (some r.o.order), k)

/-- an exception of a shared stage -/
def lift {α : Type} : Except Maps.Err α → Except Err α
  | .ok a => .ok a
  | .error e => .error (.maps e)

/-- `grace_spatial_error` (grace_spatial_error.py:190-479): the files with errors of coefficients afterwards and the map.  `fs`
are the files in the directories of the products -/
noncomputable def spatialError (eps scalef cutoff : ℝ) (erf : ℝ → ℝ) (tppf : ℝ → ℝ → ℝ) (fmt : ℝ → ℝ) (title reference : String)
    (r : Run) (grace : Harm ℝ) (meanFile : Option (Harm ℝ)) (dfactor : ℕ → ℝ) (lons lats : List ℚ)
    (fs : List Char → Option CacheFile) : Except Err ((List Char → Option CacheFile) × List (List ℝ)) :=
  match weights cutoff r.o.RAD r.o.LMAX with
  | none => .error .indexError
  | some wt =>
    match lift (anomaly grace meanFile) with
    | .error e => .error e
    | .ok a =>
      match lift (filtered r.o a) with
      | .error e => .error e
      | .ok a =>
        match a.month.head?, a.month.getLast? with
        | some m0, some m1 =>
          match deltaStep erf tppf fmt title reference r fs (deltaName r m0.toNat m1.toNat) a with
          | .error e => .error e
          | .ok (fs', d, k) =>
            match errorGrid eps scalef r.o (factorList r.o.LMAX dfactor wt) d k lons lats with
            | .error e => .error e
            | .ok g => .ok (fs', g)
        | _, _ => .error .indexError

end Verif.SpatialError
