import Verif.Spatial.Model
import Verif.Tools.Model
import Mathlib.Analysis.SpecialFunctions.Trigonometric.Basic
/-!
# Model of the programs that draw maps of grids (`scripts/plot_*_grid_*maps.py`, `scripts/plot_*_movie.py`)

The programs share their code apart from the projection, the outlines that are added and the number of panels.  Lines are
cited from `plot_global_grid_maps.py`, `plot_global_grid_3maps.py` and `plot_global_grid_movie.py`; the same code is in
`plot_global_grid_4maps.py`, `plot_global_grid_5maps.py`, `plot_global_grid_9maps.py`, `plot_AIS_grid_maps.py`,
`plot_AIS_grid_3maps.py`, `plot_AIS_grid_4maps.py`, `plot_AIS_grid_movie.py`, `plot_AIS_regional_maps.py`,
`plot_AIS_regional_movie.py`, `plot_AIS_GrIS_maps.py`, `plot_GrIS_grid_maps.py`, `plot_GrIS_grid_3maps.py`,
`plot_GrIS_grid_5maps.py`, `plot_GrIS_grid_movie.py` and `plot_QML_grid_3maps.py`.

Exact arithmetic.  A panel is described by the image as a function of longitude and latitude of an image point (the
projection gives these), the contour levels and the average.  Nearest-neighbour and bilinear interpolation are modelled,
cubic splines are not.  Drawing itself (matplotlib, cartopy), the zoomed copy of the image for the contour lines, shapefiles
and mosaics are not modelled.  Readers are parameters.
-/
namespace Verif.PlotGrid
open Verif.Spatial
open Verif.Tools (shiftGrid interpGrid landCode)

/-- exceptions -/
inductive Err
  | index         -- IndexError
  | zeroDivision  -- ZeroDivisionError
  | unbound       -- UnboundLocalError
  | value         -- ValueError
  | attribute     -- AttributeError
  | type          -- TypeError
  | reader        -- the file cannot be read
  deriving DecidableEq, Repr

/-- `np.arange(a, b + s, s)` (plot_global_grid_maps.py:184-185, 303-305) -/
def arange (a b s : ℚ) : Except Err (List ℚ) :=
  if s = 0 then .error .zeroDivision
  else .ok ((List.range ⌈(b + s - a) / s⌉.toNat).map fun k : ℕ => a + s * (k : ℚ))

/-- levels of the colour bar (plot_global_grid_maps.py:182-190): `PLOT_RANGE` or `BOUNDARY`; without both, `None[0]` is a
`TypeError` -/
def levels (range : Option (ℚ × ℚ × ℚ)) (boundary : Option (List ℚ)) : Except Err (List ℚ) :=
  match boundary with
  | some b => .ok b
  | none =>
    match range with
    | none => .error .type
    | some (a, b, s) => arange a b s

/-- `clevs[np.nonzero(clevs)]` (plot_global_grid_maps.py:307) -/
def reduced (l : List ℚ) : List ℚ := l.filter fun x => x ≠ 0

/-- contour levels that are drawn, with their colour (plot_global_grid_maps.py:302-314) -/
def contours (range : ℚ × ℚ × ℚ) : Except Err (List (ℚ × String)) := do
  let l ← arange range.1 range.2.1 range.2.2
  .ok ((reduced l).map (fun x => (x, "0.2")) ++ [(0, "red")])

/-- spacing in longitude and latitude (plot_global_grid_maps.py:194) -/
def spacing : List ℚ → Except Err (ℚ × ℚ)
  | [] => .error .index
  | [d] => .ok (d, d)
  | a :: b :: _ => .ok (a, b)

/-- conversion to an integer drops the digits after the point -/
def trunc (x : ℚ) : ℤ := if 0 ≤ x then ⌊x⌋ else ⌈x⌉

/-- `nlon` and `nlat` (plot_global_grid_maps.py:196-201); not assigned for other intervals -/
def dims (interval : ℤ) (dlon dlat : ℚ) : Except Err (Option (ℤ × ℤ)) :=
  if interval = 1 then
    if dlon = 0 ∨ dlat = 0 then .error .zeroDivision else .ok (some (trunc (360 / dlon + 1), trunc (180 / dlat + 1)))
  else if interval = 2 then
    if dlon = 0 ∨ dlat = 0 then .error .zeroDivision else .ok (some (trunc (360 / dlon), trunc (180 / dlat)))
  else .ok none

/-- order of the interpolation (plot_global_grid_maps.py:204-209); not assigned for other names -/
def order (interp : String) : Option ℕ :=
  if interp = "nearest" then some 0 else if interp = "bilinear" then some 1 else if interp = "cubic" then some 3 else none

/-- a grid of codes from a land-sea file: 0 ocean, 1 land, 2 lake, 3 small island, 4 ice shelf -/
structure LandSea where
  nth : ℕ
  nphi : ℕ
  code : ℕ → ℕ → ℤ

/-- a mask array: dimensions and values -/
structure Mask where
  n : ℕ
  m : ℕ
  val : ℕ → ℕ → Bool

/-- the mask from the land-sea file (plot_global_grid_maps.py:233-239) -/
def landMask (l : LandSea) : Mask := ⟨l.nth, l.nphi, fun i j => decide (1 ≤ l.code i j ∧ l.code i j ≤ 3)⟩

/-- the mask as `replace_invalid` takes it (spatial.py:1635-1641): masks of other dimensions are passed over -/
def applicable (o : Sp ℚ) (m : Mask) : Option (Idx → Bool) :=
  if m.n = o.shape 0 ∧ m.m = o.shape 1 then some fun i => m.val (i 0) (i 1) else none

/-- `dinput.replace_invalid(fill_value=dinput.fill_value, mask=mask)` (plot_global_grid_maps.py:241, spatial.py:1621-1648);
an object without fill value keeps `None` and its masked values become NaN -/
def applyMask (o : Sp ℚ) (m : Mask) : Sp ℚ :=
  match o.fill with
  | some f => replaceInvalid o f (applicable o m)
  | none =>
    let mask : Idx → Bool := match applicable o m with
      | none => o.mask
      | some e => fun i => o.mask i || e i
    { o with mask := mask, data := fillIn mask none o.data, error := o.error.map (fillIn mask none) }

/-- scale and direction of the latitudes (plot_global_grid_maps.py:244-249) -/
def scaleFlip (c dlat : ℚ) (o : Sp ℚ) : Sp ℚ :=
  let o := if c ≠ 1 then scale o fun _ => some c else o
  if dlat < 0 then flip o 0 else o

/-- the grid that a single map shows (plot_global_grid_maps.py:228-249) -/
def prepare (mask : Option Mask) (c dlat : ℚ) (o : Sp ℚ) : Sp ℚ :=
  scaleFlip c dlat (match mask with
    | none => o
    | some m => applyMask o m)

/-- index of row and column of a two-dimensional object -/
def cell (i j : ℕ) : Idx := fun k => if k = 0 then i else if k = 1 then j else 0

/-- an array of an object as rows -/
def rows {A : Type} (o : Sp ℚ) (f : Idx → A) : List (List A) :=
  (List.range (o.shape 0)).map fun i : ℕ => (List.range (o.shape 1)).map fun j : ℕ => f (cell i j)

/-- `np.max(lon) > 180` -/
def beyond (lon : List ℚ) : Bool := lon.any fun x => 180 < x

/-- columns moved to longitudes from -180 (plot_global_grid_maps.py:272-284); `shift_grid` raises a `ValueError` -/
def shifted {A : Type} (interval : ℤ) (dlon : ℚ) (lon : List ℚ) (d : List (List A)) :
    Except Err (List (List A) × List ℚ) :=
  if interval = 1 ∧ beyond lon then
    match shiftGrid 180 d lon 360 with
    | none => .error .value
    | some r => .ok r
  else if interval = 2 ∧ beyond lon then
    match shiftGrid (180 + dlon) d lon 360 with
    | none => .error .value
    | some r => .ok r
  else .ok (d, lon)

/-- element of an array given by rows -/
def at_ {A : Type} (d : List (List A)) (z : A) (i j : ℕ) : A := (d.getD i []).getD j z

/-- `interp_grid` of order 0 at one image point (tools.py:1205-1213) -/
def nearest {A : Type} (d : List (List A)) (z : A) (lon lat : List ℚ) (x y : ℚ) : A :=
  interpGrid lon.length lat.length (at_ d z) (fun k => lon.getD k 0) (fun k => lat.getD k 0) x y

/-- the interval of an increasing axis in which a point lies, and its position there between 0 and 1; points outside are moved
to the ends (linear splines of FITPACK) -/
def bracket (ax : List ℚ) (o : ℚ) : ℕ × ℚ :=
  let lo := ax.headD 0
  let hi := ax.getLastD 0
  let o := max lo (min o hi)
  let a := Nat.findGreatest (fun k => ax.getD k 0 ≤ o) (ax.length - 2)
  (a, (o - ax.getD a 0) / (ax.getD (a + 1) 0 - ax.getD a 0))

/-- `interp_grid` of order 1 at one image point (tools.py:1216-1218): the bilinear spline through the values -/
def bilinear (d : ℕ → ℕ → ℚ) (lon lat : List ℚ) (x y : ℚ) : ℚ :=
  let (j, u) := bracket lon x
  let (i, v) := bracket lat y
  (1 - v) * ((1 - u) * d i j + u * d i (j + 1)) + v * ((1 - u) * d (i + 1) j + u * d (i + 1) (j + 1))

/-- `RectBivariateSpline` accepts strictly increasing axes with at least two points -/
def splineAxis (ax : List ℚ) : Bool := decide (2 ≤ ax.length) && decide (ax.Pairwise (· < ·))

/-- a pixel of the image: value (`none` is NaN) and mask -/
abbrev Pixel := Val ℚ × Bool

/-- the image at a point, before the oceans are masked (plot_global_grid_maps.py:272-289).  For order 1 all values have to be
numbers (with a NaN the spline is not specified; the model gives NaN); cubic splines are not modelled (`none`). -/
def image (interval : ℤ) (interp : String) (dlon : ℚ) (o : Sp ℚ) (x y : ℚ) : Except Err (Option Pixel) :=
  match shifted interval dlon o.lon (rows o o.data) with
  | .error e => .error e
  | .ok (d, lon) =>
    match shifted interval dlon o.lon (rows o o.mask) with
    | .error e => .error e
    | .ok (m, lon') =>
      match order interp with
      | none => .error .unbound
      | some 0 => .ok (some (nearest d none lon o.lat x y, nearest m false lon' o.lat x y))
      | some 1 =>
        if splineAxis lon && splineAxis o.lat then
          let v : Val ℚ := if d.all fun r => r.all Option.isSome then
            some (bilinear (fun i j => (at_ d none i j).getD 0) lon o.lat x y) else none
          .ok (some (v, bilinear (fun i j => if at_ m false i j then 1 else 0) lon' o.lat x y ≠ 0))
        else .error .value
      | some _ => .ok none

/-- the pixel after `mask_oceans` (plot_global_grid_maps.py:292-294, tools.py:1283-1290): the mask of the package is used
whatever file was given; the fill value of the image is numpy's 1e20 -/
def oceans (land : Bool) (p : Pixel) : Pixel :=
  if p.2 || land then (some (10 ^ 20), true) else p

/-- cells of the grid that are not masked: latitude and value (plot_global_grid_maps.py:298, 323) -/
def valid (o : Sp ℚ) : List (ℚ × Val ℚ) :=
  ((List.range (o.shape 0)).flatMap fun i : ℕ => (List.range (o.shape 1)).map fun j : ℕ => (i, j)).filterMap fun p =>
    if o.mask (cell p.1 p.2) then none else some (o.lat.getD p.1 0, o.data (cell p.1 p.2))

/-- area of a cell (plot_global_grid_maps.py:256-258, 322-324) -/
noncomputable def area (rad dlon dlat : ℝ) (lat : ℚ) : ℝ :=
  rad ^ 2 * (dlat * Real.pi / 180) * (dlon * Real.pi / 180) * Real.cos ((lat : ℝ) * Real.pi / 180)

/-- the average that is drawn in blue (plot_global_grid_maps.py:322-326), of cells with numbers; `none`: 0/0 -/
noncomputable def average (rad dlon dlat : ℝ) (cs : List (ℚ × ℚ)) : Option ℝ :=
  let w := (cs.map fun p => area rad dlon dlat p.1).sum
  if w = 0 then none else some ((cs.map fun p => area rad dlon dlat p.1 * (p.2 : ℝ)).sum / w)

/-! ## Several panels -/

/-- the argument `DATAFORM`: a text or a list of texts -/
inductive Forms
  | text (s : String)
  | list (l : List String)

/-- `DATAFORM = DATAFORM*len(FILENAMES)` if it is shorter than the list of files (plot_global_grid_3maps.py:170-171) -/
def extend (nfiles : ℕ) : Forms → Forms
  | .text s => if s.length < nfiles then .text (String.ofList (List.replicate nfiles s.toList).flatten) else .text s
  | .list l => if l.length < nfiles then .list (List.replicate nfiles l).flatten else .list l

/-- `DATAFORM[i]`: a letter of a text -/
def Forms.get (f : Forms) (i : ℕ) : Option String :=
  match f with
  | .text s => (s.toList[i]?).map fun c => String.ofList [c]
  | .list l => l[i]?

/-- the field that is subtracted (plot_global_grid_3maps.py:228-232) -/
inductive Remove
  | zero
  /-- an array with at least two elements -/
  | field (v : Idx → Val ℚ)

/-- a mask for the zoomed copy of the image, five times the rows and columns (plot_global_grid_3maps.py:328-329) -/
def zoomed (size : ℕ × ℕ) (v : ℕ → ℕ → Bool) : Mask := ⟨5 * size.1, 5 * size.2, v⟩

/-- one panel (plot_global_grid_3maps.py:245-273): `old` is what `dinput` is from the panel before.  The truth value of an array
is a `ValueError`. -/
def panel (read : String → String → Except Err (Sp ℚ)) (remove : Remove) (c dlat : ℚ) (mask : Option Mask) (old : Option (Sp ℚ))
    (form file : String) : Except Err (Sp ℚ) := do
  let o ← if form = "ascii" ∨ form = "netCDF4" ∨ form = "HDF5" then read form file else
    match old with
    | none => .error .unbound
    | some o => .ok o
  let o ← match remove with
    | .field _ => (.error .value : Except Err (Sp ℚ))
    | .zero => .ok (if c ≠ 1 then scale (offset o fun _ => some 0) fun _ => some c else o)
  let o := match mask with
    | none => o
    | some m => applyMask o m
  .ok (if dlat < 0 then flip o 0 else o)

/-- the grids of the panels from number `i` on; `size` is the number of rows and columns of an image (361 and 721 for global
maps, plot_global_grid_3maps.py:276-278), `zoom i` is the inverted zoomed mask of the image, to which the name `mask` is
bound after panel `i` (plot_global_grid_3maps.py:329) -/
def panelsFrom (read : String → String → Except Err (Sp ℚ)) (remove : Remove) (c dlat : ℚ) (useMask : Bool) (forms : Forms)
    (size : ℕ × ℕ) (zoom : ℕ → ℕ → ℕ → Bool) : ℕ → Option Mask → Option (Sp ℚ) → List String → Except Err (List (Sp ℚ))
  | _, _, _, [] => .ok []
  | i, mask, old, f :: fs => do
    let form ← match forms.get i with
      | none => (.error .index : Except Err String)
      | some s => .ok s
    let o ← panel read remove c dlat (if useMask then mask else none) old form f
    let r ← panelsFrom read remove c dlat useMask forms size zoom (i + 1) (some (zoomed size (zoom i))) (some o) fs
    .ok (o :: r)

/-- the grids of all panels (plot_global_grid_3maps.py:170-273) -/
def panels (read : String → String → Except Err (Sp ℚ)) (remove : Remove) (c dlat : ℚ) (landsea : Option LandSea) (forms : Forms)
    (size : ℕ × ℕ) (zoom : ℕ → ℕ → ℕ → Bool) (files : List String) : Except Err (List (Sp ℚ)) :=
  panelsFrom read remove c dlat landsea.isSome (extend files.length forms) size zoom 0 (landsea.map landMask) none files

/-- the arguments that `main` passes on (plot_global_grid_3maps.py:568-597): neither the mask nor a field to remove, and the text
`netCDF4` as default of the formats (plot_global_grid_3maps.py:449-451) -/
def mainPanels (read : String → String → Except Err (Sp ℚ)) (c dlat : ℚ) (_maskArg : LandSea) (formats : Option (List String))
    (size : ℕ × ℕ) (zoom : ℕ → ℕ → ℕ → Bool) (files : List String) : Except Err (List (Sp ℚ)) :=
  panels read .zero c dlat none (match formats with
    | none => .text "netCDF4"
    | some l => .list l) size zoom files

/-- the arguments that `main` of the single map passes on (plot_global_grid_maps.py:563-592): not the mask -/
def mainMap (_maskArg : LandSea) (c dlat : ℚ) (o : Sp ℚ) : Sp ℚ := prepare none c dlat o

/-! ## Movies -/

/-- a frame is drawn with the mask of the grounded points, if there is one (plot_global_grid_movie.py:369-408): `size` are the
dimensions of the image and `mask` those of the array, which after the first frame is that of the zoomed copy; `|=` with an array
of other dimensions is a `ValueError`.  The masked array has no attribute `lat`. -/
def frame (size : ℕ × ℕ) (interval : ℤ) (lon : List ℚ) (useMask : Bool) (mask : ℕ × ℕ) : Except Err Unit :=
  if interval = 1 ∧ beyond lon then .error .attribute
  else if useMask ∧ mask ≠ size then .error .value
  else .ok ()

/-- the number of frames that are written and the exception, if any (plot_global_grid_movie.py:365-442) -/
def frames (size : ℕ × ℕ) (interval : ℤ) (lon : List ℚ) (useMask : Bool) : ℕ × ℕ → ℕ → ℕ → ℕ × Option Err
  | _, done, 0 => (done, none)
  | mask, done, n + 1 =>
    match frame size interval lon useMask mask with
    | .error e => (done, some e)
    | .ok () => frames size interval lon useMask (5 * size.1, 5 * size.2) (done + 1) n

/-- a movie of `n` months (plot_global_grid_movie.py:284-285, 362-442) -/
def movie (size : ℕ × ℕ) (interval : ℤ) (lon : List ℚ) (useMask : Bool) (n : ℕ) : ℕ × Option Err :=
  frames size interval lon useMask size 0 n

/-- year and month of the label of a frame (plot_global_grid_movie.py:434-436) -/
def label (time : ℚ) (gm : ℤ) : ℤ × ℤ := (⌊time⌋, (gm - 1) % 12 + 1)

/-- `default_field_mapping` (spatial.py:1133-1161): the names of longitude, latitude, data and time that are given -/
def fieldMapping (vars : List String) : List (String × String) := ["lon", "lat", "data", "time"].zip vars

end Verif.PlotGrid
