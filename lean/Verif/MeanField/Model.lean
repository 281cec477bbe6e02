import Verif.GraceText.Model
import Verif.HarmIO.Index

/-!
# Model of `scripts/grace_mean_harmonics.py`

The mean of monthly fields with the errors of the mean, and the files in which it is kept.  Exact arithmetic; the square root is
an argument.  Reading of the months is modelled elsewhere (Verif.Input); logging and permissions are not modelled.
-/
namespace Verif.MeanField
open Verif.Harmonics Verif.SLR Verif.SpatialIO
open Verif.HarmIO (fmtD sciParts expDigits)
open Verif.GraceText (fmtEC)
open Verif (lmPairs)

/-- exceptions: unknown format, an object that cannot be written -/
inductive Err
  | keyError | file
deriving DecidableEq

/-- the months that are read (grace_mean_harmonics.py:187-193): fields and their errors -/
structure Months (K : Type) where
  field : Harm K
  eclm : ℕ → ℕ → ℕ → K
  eslm : ℕ → ℕ → ℕ → K

/-- the mean field: coefficients, errors, date and month -/
structure MeanFld (K : Type) where
  h : Harm K
  eclm : ℕ → ℕ → K
  eslm : ℕ → ℕ → K
  time : ℚ
  month : ℚ

/-- number of months, `grace_Ylms.shape[-1]` (grace_mean_harmonics.py:201) -/
def Months.nt {K : Type} (g : Months K) : ℕ := g.field.nt.getD 1

/-- `np.sqrt(np.sum(e**2,axis=2)/nt)` for one coefficient (grace_mean_harmonics.py:203-204) -/
def rmsOf {K : Type} [Field K] (sqrt : K → K) (n : ℕ) (e : ℕ → K) : K :=
  sqrt (((List.range n).map fun t => e t ^ 2).sum / n)

/-- the mean field (grace_mean_harmonics.py:197-204, 247-262).  The object has the mean month, a number which need not be an
integer; as a variable of a file it is modelled by the integer below it (readers of mean files do not read it) -/
def meanField {K : Type} [Field K] (sqrt : K → K) (g : Months K) : MeanFld K :=
  let n := g.nt
  let t := npMean g.field.time
  let mo := npMean (g.field.month.map fun k : ℤ => (k : ℚ))
  { h := { (mean g.field false (List.range n)).1 with time := [t], month := [⌊mo⌋] }
    eclm := fun l m => rmsOf sqrt n (g.eclm l m)
    eslm := fun l m => rmsOf sqrt n (g.eslm l m)
    time := t
    month := mo }

/-! ## Files -/

/-- formats of the mean file -/
inductive Form
  | ascii | netCDF4 | HDF5 | gfc
deriving DecidableEq

/-- `dict(ascii='txt',netCDF4='nc',HDF5='H5',gfc='gfc')[MEANFORM]` (grace_mean_harmonics.py:181): format and suffix; another
name, or none, raises `KeyError` -/
def formOf (MEANFORM : List Char) : Except Err (Form × List Char) :=
  if MEANFORM = "ascii".toList then .ok (.ascii, "txt".toList)
  else if MEANFORM = "netCDF4".toList then .ok (.netCDF4, "nc".toList)
  else if MEANFORM = "HDF5".toList then .ok (.HDF5, "H5".toList)
  else if MEANFORM = "gfc".toList then .ok (.gfc, "gfc".toList)
  else .error .keyError

/-- what is fixed by the command line and appears in names and headers -/
structure Job where
  PROC : List Char
  DREL : List Char
  DSET : List Char
  LMAX : ℕ
  MMAX : ℕ
  START : ℕ
  END : ℕ

/-- `MMAX = np.copy(LMAX) if not MMAX else MMAX` (grace_mean_harmonics.py:174) -/
def Job.order (j : Job) : ℕ := if j.MMAX = 0 then j.LMAX else j.MMAX

/-- zero padded number -/
def num (w n : ℕ) : List Char :=
  List.replicate (w - (natDigits n).length) '0' ++ (natDigits n).map dchar

/-- default name `'{0}_{1}_{2}_MEAN_CLM{3}_L{4:d}{5}_{6:03d}-{7:03d}.{8}'` (grace_mean_harmonics.py:207-211); `title` is the
description of the processing of the months -/
def meanName (j : Job) (title suffix : List Char) : List Char :=
  j.PROC ++ '_' :: j.DREL ++ '_' :: j.DSET ++ "_MEAN_CLM".toList ++ title ++ "_L".toList ++ num 0 j.LMAX ++
    (if j.order ≠ j.LMAX then 'M' :: num 0 j.order else []) ++ '_' :: num 3 j.START ++ '-' :: num 3 j.END ++ '.' :: suffix

/-- `'{0:w.pE}'.format(x)`: no sign for numbers that are not negative -/
def fmtEU (w p : ℕ) (x : ℚ) : List Char :=
  let m := (sciParts p x).1
  let e := (sciParts p x).2
  let d := expDigits e.natAbs
  pad w ((if x < 0 then ['-'] else []) ++ (natDigits (m / 10 ^ p)).map dchar ++ '.' :: (lastDigits p m).map dchar ++
    'E' :: (if e < 0 then '-' else '+') :: (d.1 :: d.2).map dchar)

/-- `'{0:w}'.format(s)`: text padded on the right -/
def padRight (w : ℕ) (s : List Char) : List Char := s ++ List.replicate (w - s.length) ' '

/-- attributes of gfc files (grace_mean_harmonics.py:166-178) -/
def attributesOf (j : Job) : List (List Char × List Char) :=
  [("generating_institute".toList, j.PROC), ("product_release".toList, j.DREL), ("product_name".toList, j.DSET),
    ("product_type".toList, "gravity_field".toList), ("max_degree".toList, num 0 j.LMAX), ("max_order".toList, num 0 j.order)]

/-- a line `'{0:30}{1}'` of the header (grace_mean_harmonics.py:301) -/
def headLine (kv : List Char × List Char) : List Char := padRight 30 kv.1 ++ kv.2

/-- parameters at the end of the header (grace_mean_harmonics.py:302-306) -/
def constants : List (List Char × List Char) :=
  [("earth_gravity_constant".toList, fmtEC 16 10 398600441500000), ("radius".toList, fmtEC 16 10 6378136.3),
    ("errors".toList, "uncalibrated".toList), ("norm".toList, "fully_normalized".toList)]

/-- `print_header` (grace_mean_harmonics.py:297-309) -/
def gfcHeader (j : Job) : List (List Char) :=
  ["begin_of_head ".toList ++ List.replicate 73 '='] ++ (attributesOf j ++ constants).map headLine ++
    [[], padRight 7 "key".toList ++ padRight 5 "L".toList ++ padRight 10 "M".toList ++ padRight 20 "C".toList ++
      padRight 15 "S".toList ++ padRight 13 "sigma C".toList ++ padRight 7 "sigma S".toList,
     "end_of_head ".toList ++ List.replicate 75 '=']

/-- a data line, `'{0:3} {1:4d} {2:4d} {3:+18.12E} {4:+18.12E}  {5:11.5E}  {6:11.5E}'` (grace_mean_harmonics.py:283-291) -/
def gfcLine (y : MeanFld ℚ) (p : ℕ × ℕ) : List Char :=
  [' '].intercalate [padRight 3 "gfc".toList, fmtD 4 p.1, fmtD 4 p.2, fmtEC 18 12 (y.h.clm p.1 p.2 0),
    fmtEC 18 12 (y.h.slm p.1 p.2 0), ' ' :: fmtEU 11 5 (y.eclm p.1 p.2), ' ' :: fmtEU 11 5 (y.eslm p.1 p.2)]

/-- `to_gfc` (grace_mean_harmonics.py:264-293) -/
def toGfc (j : Job) (y : MeanFld ℚ) : List (List Char) :=
  gfcHeader j ++ (lmPairs y.h.lmax y.h.mmax).map (gfcLine y)

/-- the contents of the file that is written -/
inductive MeanFile (K : Type)
  | text (lines : List (List Char))
  | data (f : HarmIO.Data.File K)

/-- `to_file(MEAN_FILE, format=MEANFORM)` for netCDF4 and HDF5 (grace_mean_harmonics.py:225-232); `root` are the attributes, an
existing file is replaced -/
def writeData {K : Type} [Field K] (hdf5 : Bool) (root : SpatialIO.Data.Attrs) (old : Option (HarmIO.Data.File K)) (y : MeanFld K) :
    Except Err (HarmIO.Data.File K) :=
  match HarmIO.Data.write hdf5 {} old ⟨y.h, root⟩ with
  | .ok r => .ok r.2
  | .error _ => .error .file

/-- the file of any format (grace_mean_harmonics.py:216-232) -/
def writeMean (MEANFORM : List Char) (root : SpatialIO.Data.Attrs) (j : Job) (sqrt : ℚ → ℚ) (g : Months ℚ) :
    Except Err (MeanFile ℚ) :=
  match formOf MEANFORM with
  | .error e => .error e
  | .ok (.gfc, _) => .ok (.text (toGfc j (meanField sqrt g)))
  | .ok (.ascii, _) =>
    match HarmIO.toAscii (HarmIO.Data.toField (meanField sqrt g).h) true with
    | .ok lines => .ok (.text lines)
    | .error _ => .error .file
  | .ok (.netCDF4, _) => (writeData false root none (meanField sqrt g)).map .data
  | .ok (.HDF5, _) => (writeData true root none (meanField sqrt g)).map .data

/-- `from_file(MEAN_FILE, format=MEANFORM, date=False)` (e.g. grace_spatial_maps.py:310-311) for netCDF4 and HDF5 -/
def readData {K : Type} [Field K] (f : HarmIO.Data.File K) : Except Err (Harm K) :=
  match HarmIO.Data.read false f with
  | .ok out => .ok out.h
  | .error _ => .error .file

/-- what `harmonics.from_gfc` takes from the dictionary of the external reader -/
structure Gravity where
  clm : ℕ → ℕ → ℚ
  slm : ℕ → ℕ → ℚ
  max_degree : List Char
  GM : List Char
  R : List Char
  tide : List Char

/-- `harmonics.from_gfc(filename, date=False)` (harmonics.py:486-537), used for mean files in gfc form.  `reader` stands for
`read_ICGEM_harmonics` of the package geoid_toolkit: coefficients and the parameters of the header.  A parameter that is not in
the dictionary raises `KeyError`.  The texts of the parameters are kept, the code converts them to numbers -/
def fromGfc (reader : List (List Char) → Option ((ℕ → ℕ → ℚ) × (ℕ → ℕ → ℚ) × (List Char → Option (List Char))))
    (lines : List (List Char)) : Except Err Gravity :=
  match reader lines with
  | none => .error .file
  | some (c, s, d) =>
    match d "max_degree".toList, d "earth_gravity_constant".toList, d "radius".toList, d "tide_system".toList with
    | some l, some gm, some r, some t => .ok ⟨c, s, l, gm, r, t⟩
    | _, _, _, _ => .error .keyError

end Verif.MeanField
