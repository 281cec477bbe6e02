import Verif.Time.Model
import Mathlib.Analysis.SpecialFunctions.Complex.Arg

/-!
# Model of `tools.py` (functions on longitudes, grids and colour tables)

Exact arithmetic.  Plotting, file dialogs and the ipywidgets interface are not modelled, except for the
logic of the colour tables and of `colormap.levels`.
-/
namespace Verif.Tools
open Verif.Time (npRound)

/-- `wrap_longitudes(lon)` (tools.py:1117-1128); `np.arctan2(y, x)` is the argument of `x + iy` -/
noncomputable def wrapLongitudes (lon : ℝ) : ℝ :=
  let phi := Complex.arg ⟨Real.cos (lon * Real.pi / 180), Real.sin (lon * Real.pi / 180)⟩
  phi * 180 / Real.pi

/-- `np.argmin(np.fabs(lon-lon0))`: index of the first smallest value (tools.py:1157) -/
def argminAbs (lon : List ℚ) (lon0 : ℚ) : ℕ :=
  let d := lon.map fun x => |x - lon0|
  d.findIdx fun x => d.all fun y => x ≤ y

/-- assigning one-dimensional `src` to a slice of `n` entries: `None` is numpy's `ValueError` (a single
value would be repeated) -/
def assignSlice {A : Type} (n : ℕ) (src : List A) : Option (List A) :=
  if src.length = n then some src
  else match src with
    | [x] => some (List.replicate n x)
    | _ => none

/-- `out[0:-i0] = first; out[-i0:] = second` for an array of `n` entries (tools.py:1163-1164, 1170-1171);
`-0` is `0`: the first slice is then empty and the second is everything.  For `0 < i0 <= n`. -/
def twoSlices {A : Type} (n i0 : ℕ) (first second : List A) : Option (List A) :=
  match assignSlice (if i0 = 0 then 0 else n - i0) first, assignSlice (if i0 = 0 then n else i0) second with
  | some a, some b => some (if i0 = 0 then b else a ++ b)
  | _, _ => none

/-- `start_idx` (tools.py:1156) -/
def startIdx (lon : List ℚ) (cyclic : ℚ) : ℕ :=
  if 1 / 10000 < |lon.getLastD 0 - lon.headD 0 - cyclic| then 0 else 1

/-- `shift_grid(lon0, data, lon, CYCLIC)` (tools.py:1131-1173): shifted rows and longitudes; `none` for an
exception (also for an empty longitude array) -/
def shiftGrid {A : Type} (lon0 : ℚ) (data : List (List A)) (lon : List ℚ) (cyclic : ℚ) :
    Option (List (List A) × List ℚ) :=
  if lon = [] then none
  else
    let s := startIdx lon cyclic
    let i0 := argminAbs lon lon0
    match twoSlices lon.length i0 ((lon.drop i0).map (· - cyclic)) ((lon.drop s).take i0) with
    | none => none
    | some l =>
      match data.mapM fun row => twoSlices row.length i0 (row.drop i0) ((row.drop s).take i0) with
      | none => none
      | some d => some (d, l)

/-- index along one axis of the nearest-neighbour interpolation (tools.py:1205-1213): `x i` are the `n`
input coordinates, `o` the output coordinate -/
def nearestIdx (n : ℕ) (x : ℕ → ℚ) (o : ℚ) : ℤ :=
  let c := ((n - 1 : ℕ) : ℚ) * (o - x 0) / (x (n - 1) - x 0)
  let c := min (max c 0) ((n - 1 : ℕ) : ℚ)
  npRound c

/-- `interp_grid(data, xin, yin, xout, yout, order=0)` for one output point (tools.py:1205-1213); the
spline interpolation of other orders is not modelled -/
def interpGrid {A : Type} (nx ny : ℕ) (data : ℕ → ℕ → A) (xin yin : ℕ → ℚ) (xout yout : ℚ) : A :=
  data (nearestIdx ny yin yout).toNat (nearestIdx nx xin xout).toNat

/-- the land function of `mask_oceans` from the codes of the land-sea mask (tools.py:1270-1281) -/
def landCode (lakes iceshelves : Bool) (code : ℤ) : Bool :=
  code == 1 || (lakes && code == 2) || code == 3 || (iceshelves && code == 4)

/-- the mask of `mask_oceans` at one output point, nearest neighbour (tools.py:1283-1293) -/
def oceanMask (lakes iceshelves : Bool) (nphi nth : ℕ) (code : ℕ → ℕ → ℤ) (lon lat : ℕ → ℚ) (x y : ℚ) : Bool :=
  interpGrid nphi nth (fun i j => landCode lakes iceshelves (code i j)) lon lat x y

/-- the data object after `mask_oceans(data=...)` at one point: value and mask (tools.py:1286-1290) -/
def maskCell (m : Bool) (fill : ℚ) (cell : ℚ × Bool) : ℚ × Bool :=
  let mask := cell.2 || m
  (if mask then fill else cell.1, mask)

/-! ## colour tables -/

/-- one line of a colour palette table after the regular expressions (tools.py:951-967) -/
inductive CptLine where
  | model (hsv : Bool)
  | flag (c : Char) (rgb : List ℚ)
  | comment
  | colour (x1 r1 g1 b1 x2 r2 g2 b2 : ℚ)
  | bad

/-- state of the reading loop (tools.py:946-977): entries so far and the end point of the last colour
line -/
structure CptState where
  hsv : Bool := false
  entries : List (ℚ × ℚ × ℚ × ℚ) := []
  last : Option (ℚ × ℚ × ℚ × ℚ) := none

/-- one line (tools.py:951-972); `none` for a line that does not have eight numbers -/
def cptStep (s : CptState) : CptLine → Option CptState
  | .model h => some { s with hsv := h }
  | .flag _ _ => some s
  | .comment => some s
  | .colour x1 r1 g1 b1 x2 r2 g2 b2 =>
    some { s with entries := s.entries ++ [(x1, r1, g1, b1)], last := some (x2, r2, g2, b2) }
  | .bad => none

/-- the colour nodes of `from_cpt` (tools.py:946-1004) with normalised location and colour; `toRgb` is
the colour conversion of the table's colour model.  `none` for an exception. -/
def cptNodes (toRgb : Bool → ℚ × ℚ × ℚ → ℚ × ℚ × ℚ) (ls : List CptLine) : Option (List (ℚ × ℚ × ℚ × ℚ)) :=
  match ls.foldlM cptStep {} with
  | none => none
  | some s =>
    match s.last with
    | none => none
    | some e =>
      let all := s.entries ++ [e]
      let x0 := (all.headD e).1
      if e.1 - x0 = 0 then none
      else some (all.map fun p => ((p.1 - x0) / (e.1 - x0), toRgb s.hsv p.2))

/-- the conversion of RGB tables (tools.py:990-996) -/
def rgb255 (p : ℚ × ℚ × ℚ) : ℚ × ℚ × ℚ := (p.1 / 255, p.2.1 / 255, p.2.2 / 255)

/-- `colormap.levels`: `range(cmin, cmax+step, step)` for a positive step (tools.py:906-910) -/
def levels (cmin cmax step : ℤ) : List ℤ :=
  (List.range (((cmax + step - cmin) + step - 1) / step).toNat).map fun k : ℕ => cmin + step * k

/-! ## the degree selection of the widgets -/

/-- `set_max_degree` (tools.py:427-441): the centre widget itself, not its value, is compared with the
names, so `centerEq` is what the comparison of a widget with a string gives; `none` is the
`UnboundLocalError` (or `KeyError`) -/
def setMaxDegree (centerEq : String → Bool) (release : String) : Option ℕ :=
  if centerEq "CNES" then
    match release with
    | "RL01" => some 50 | "RL02" => some 50 | "RL03" => some 80 | "RL04" => some 90 | "RL05" => some 90
    | _ => none
  else if centerEq "CSR" || centerEq "JPL" then
    match release with
    | "RL04" => some 60 | "RL05" => some 60 | "RL06" => some 60 | _ => none
  else if centerEq "GFZ" then
    match release with
    | "RL04" => some 90 | "RL05" => some 90 | "RL06" => some 60 | _ => none
  else none

end Verif.Tools
