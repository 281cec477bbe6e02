import Verif.Maps.Model

/-!
# Model of `scripts/grace_raster_grids.py`

Monthly fields on a grid of map projection coordinates.  Exact real arithmetic.  The stages shared with `grace_spatial_maps` are
those of Verif.Maps.  The functions of `pyproj` and `geoid_toolkit` which turn the coordinates of a cell into longitude and geocentric
latitude are an arbitrary function `pos`.  Attributes and the file are not modelled.
-/
namespace Verif.Raster
open Verif.Harmonics Verif.Maps Verif.Synthesis

/-- cell coordinates (grace_raster_grids.py:461-467): the first `y` is half a spacing in `x` from the boundary.  `none`: `SPACING`
cannot be broadcast to two numbers or `BOUNDS` not be unpacked into four -/
def cells (spacing bounds : List ℚ) : Option (List ℚ × List ℚ) :=
  match (match spacing with | [d] => some (d, d) | [dx, dy] => some (dx, dy) | _ => none), bounds with
  | some (dx, dy), [xmin, xmax, ymin, ymax] =>
    some (arange (xmin + dx / 2) (xmax + dx) dx, arange (ymin + dx / 2) (ymax + dy) dy)
  | _, _ => none

/-- `clenshaw_summation` (clenshaw_summation.py:72-187) of a field, as a function of longitude and latitude.  All orders up to
`LMAX` are read, starting with `LMAX` -/
noncomputable def fieldAt (scale cutoff RAD : ℝ) (LMAX : ℕ) (dfactor : ℕ → ℝ) (h : Harm ℝ) : Except Maps.Err (ℝ × ℝ → ℝ) :=
  match weights cutoff RAD LMAX with
  | none => .error .indexError
  | some wl =>
    if h.lmax < LMAX ∨ h.mmax < LMAX then .error .indexError
    else .ok fun p => clenshaw scale (fun l => dfactor l * wl l) (fun l m => h.clm l m 0) (fun l m => h.slm l m 0) LMAX p.1 p.2

/-- the field of a month and its date (grace_raster_grids.py:492-511) -/
noncomputable def monthField (scale cutoff : ℝ) (o : Opts) (dfactor : ℕ → ℝ) (grace gia removed : Harm ℝ) (i : ℕ) :
    Except Maps.Err ((ℝ × ℝ → ℝ) × List ℚ) :=
  match index grace i, index gia i, index removed i with
  | .ok y, .ok g, .ok r =>
    match subtract y g with
    | .error e => .error (.harm e)
    | .ok y =>
      match subtract y r with
      | .error e => .error (.harm e)
      | .ok y =>
        match fieldAt scale cutoff o.RAD o.LMAX dfactor (truncate y (some o.LMAX) o.LMIN (some o.order)) with
        | .error e => .error e
        | .ok f => .ok (f, y.time)
  | _, _, _ => .error .indexError

/-- the raster: `z` by row, column and month -/
structure Grid where
  x : List ℚ
  y : List ℚ
  time : List (List ℚ)
  z : List (List (List ℝ))

/-- fill value (grace_raster_grids.py:449) -/
def fillValue : ℝ := -9999

/-- land mask threshold (grace_raster_grids.py:479) -/
noncomputable def threshold : ℝ := 0.025

open scoped Classical in
/-- the values of all cells (grace_raster_grids.py:468-513) -/
noncomputable def rasterize (pos : ℚ → ℚ → ℝ × ℝ) (xs ys : List ℚ) (mask : ℝ × ℝ → ℝ) (months : List ((ℝ × ℝ → ℝ) × List ℚ)) :
    Grid :=
  { x := xs, y := ys, time := months.map (·.2)
    z := ys.map fun y => xs.map fun x => months.map fun f =>
      if mask (pos x y) > threshold then f.1 (pos x y) else fillValue }

/-- `grace_raster_grids` (grace_raster_grids.py:237-513).  `land`: the harmonics of the land function; `dland`, `dfactor`: the
factors for equivalent water thickness and for the units of the output; the mask is smoothed with twice the radius -/
noncomputable def raster (scale cutoff : ℝ) (o : Opts) (grace : Harm ℝ) (meanFile : Option (Harm ℝ)) (giaRate : Harm ℝ)
    (sources : List Source) (land : Harm ℝ) (dland dfactor : ℕ → ℝ) (spacing bounds : List ℚ) (pos : ℚ → ℚ → ℝ × ℝ) :
    Except Maps.Err Grid :=
  match anomaly grace meanFile with
  | .error e => .error e
  | .ok a =>
    match filtered o a with
    | .error e => .error e
    | .ok a =>
      match removedSum o a (zerosLike a) sources with
      | .error e => .error e
      | .ok r =>
        match cells spacing bounds with
        | none => .error .valueError
        | some (xs, ys) =>
          match fieldAt scale cutoff (2 * o.RAD) o.LMAX dland land with
          | .error e => .error e
          | .ok mask =>
            match (List.range a.month.length).mapM (monthField scale cutoff o dfactor a (giaSeries giaRate a) r) with
            | .error e => .error e
            | .ok months => .ok (rasterize pos xs ys mask months)

end Verif.Raster
