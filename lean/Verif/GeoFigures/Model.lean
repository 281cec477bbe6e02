import Mathlib.Analysis.SpecialFunctions.Sqrt
/-!
# Figures of geocenter series

Models of the data that the four plotting programs draw:
* `geocenter_processing_centers` (scripts/geocenter_processing_centers.py:62-161),
* `geocenter_ocean_models` (scripts/geocenter_ocean_models.py:62-150),
* `geocenter_compare_tellus` (scripts/geocenter_compare_tellus.py:52-203),
* `geocenter_monte_carlo` (scripts/geocenter_monte_carlo.py:51-157).

Exact real arithmetic; NaN is `none`.  A file is read by a parameter that returns the records of the series
(the readers have their own models).  Fonts, ticks, legends and colours of matplotlib are not modelled, with
the exception of the limits of the time axis and of the tables from which the colours are taken, because these
can fail.
-/
namespace Verif.GeoFigures

/-- One record of a geocenter series: month number, time, coefficients. -/
structure Rec where
  month : ℤ
  time : ℝ
  c10 : ℝ
  c11 : ℝ
  s11 : ℝ

inductive Err
  | value    -- ValueError
  | key      -- KeyError
  | index    -- IndexError
  | name     -- NameError
  | file     -- the file cannot be read
  deriving DecidableEq, Repr

/-- `sorted(set(np.arange(START_MON,END_MON+1)) - set(MISSING))`
(geocenter_processing_centers.py:65).  The range is increasing, so the sorted set is the filtered range. -/
def monthsOf (start stop : ℤ) (missing : List ℤ) : List ℤ :=
  ((List.range (stop + 1 - start).toNat).map fun i : ℕ => start + (i : ℤ)).filter fun m => m ∉ missing

/-- mean over the records of `START_MON` to 176 (geocenter_processing_centers.py:101-102 and
geocenter.py:1081-1085); the mean of nothing is NaN -/
noncomputable def meanOver (start : ℤ) (g : Rec → ℝ) (recs : List Rec) : Option ℝ :=
  let kk := recs.filter fun r => start ≤ r.month ∧ r.month ≤ 176
  if kk = [] then none else some ((kk.map g).sum / (kk.length : ℝ))

/-- `to_cartesian(kl=0.021)` (geocenter.py:935-938) -/
noncomputable def cart (radius c : ℝ) : ℝ := c * radius * Real.sqrt 3 / (1 + 0.021)

/-- value of a record in a panel after removal of the mean (geocenter_processing_centers.py:101-104) -/
noncomputable def value (radius : ℝ) (start : ℤ) (g : Rec → ℝ) (recs : List Rec) (r : Rec) : Option ℝ :=
  (meanOver start g recs).map fun mu => cart radius (g r - mu)

/-- One point: `tdec[i] = DEG1.time[mm]; data[i] = val[mm]` (geocenter_processing_centers.py:111-116): NaN if
the month is absent, ValueError if `mm` has more than one element. -/
def point (recs : List Rec) (v : Rec → Option ℝ) (m : ℤ) : Except Err (Option ℝ × Option ℝ) :=
  match recs.filter fun r => r.month = m with
  | [] => .ok (none, none)
  | [r] => .ok (some r.time, v r)
  | _ => .error .value

/-- the points of one line (geocenter_processing_centers.py:107-116) -/
def line (months : List ℤ) (recs : List Rec) (v : Rec → Option ℝ) : Except Err (List (Option ℝ × Option ℝ)) :=
  months.mapM (point recs v)

/-- The three panels: `fig_labels = ['C11','S11','C10']` with titles x, y, z
(geocenter_processing_centers.py:71-73). -/
structure Panels (α : Type) where
  x : α
  y : α
  z : α

/-- the three lines of one series (geocenter_processing_centers.py:106-118) -/
noncomputable def draw (radius : ℝ) (start : ℤ) (months : List ℤ) (recs : List Rec) :
    Except Err (Panels (List (Option ℝ × Option ℝ))) := do
  let x ← line months recs (value radius start (·.c11) recs)
  let y ← line months recs (value radius start (·.s11) recs)
  let z ← line months recs (value radius start (·.c10) recs)
  .ok ⟨x, y, z⟩

/-- the shaded span from the end of GRACE to the start of GRACE-FO: `jj, = np.flatnonzero(month == 186)`
(geocenter_processing_centers.py:126-129) -/
def span (recs : List Rec) : Except Err (ℝ × ℝ) :=
  match recs.filter fun r => r.month = 186 with
  | [a] =>
    match recs.filter fun r => r.month = 198 with
    | [b] => .ok (a.time, b.time)
    | _ => .error .value
  | _ => .error .value

/-- limits of the time axis (geocenter_processing_centers.py:139-144) -/
noncomputable def axis (start stop : ℤ) : ℝ × ℝ :=
  (2002 + (((start + 1) / 12 : ℤ) : ℝ), 2002 + ((stop : ℝ) + 1) / 12)

/-- a figure: label, colour and lines of every series, and the span -/
structure Figure where
  lines : List (String × String × Panels (List (Option ℝ × Option ℝ)))
  gap : ℝ × ℝ

/-- `'OMCT' if DREL in ('RL04','RL05') else 'MPIOM'` (geocenter_processing_centers.py:70) -/
def modelOf (drel : String) : String := if drel = "RL04" ∨ drel = "RL05" then "OMCT" else "MPIOM"

/-- name of the file of a processing center (geocenter_processing_centers.py:89-98) -/
def centerFile (drel pr : String) : String :=
  if pr = "GFZwPT" ∨ pr = "GFZ+CS21" then "GFZ_" ++ drel ++ "_" ++ modelOf drel ++ "_SLF_iter_wSLR21.txt"
  else if pr = "GFZ+CS21+CS22" then "GFZ_" ++ drel ++ "_" ++ modelOf drel ++ "_SLF_iter_wSLR21_wSLR22.txt"
  else pr ++ "_" ++ drel ++ "_" ++ modelOf drel ++ "_SLF_iter.txt"

/-- colours of the processing centers (geocenter_processing_centers.py:76-79) -/
def centerColor (pr : String) : Option String :=
  if pr = "CSR" then some "darkorange"
  else if pr = "GFZ" then some "darkorchid"
  else if pr = "JPL" then some "mediumseagreen"
  else if pr = "GFZwPT" then some "dodgerblue"
  else if pr = "GFZ+CS21" then some "darkorchid"
  else if pr = "GFZ+CS21+CS22" then some "darkorchid"
  else none

/-- colour of a center or KeyError (geocenter_processing_centers.py:118) -/
def colorOrKey (o : Option String) (e : Err) : Except Err String :=
  match o with
  | some c => .ok c
  | none => .error e

/-- One center: read, draw, look up the colour (geocenter_processing_centers.py:87-118). -/
noncomputable def centerLine (read : String → Except Err (List Rec)) (radius : ℝ) (drel : String) (start : ℤ)
    (months : List ℤ) (pr : String) :
    Except Err ((String × String × Panels (List (Option ℝ × Option ℝ))) × List Rec) := do
  let recs ← read (centerFile drel pr)
  let p ← draw radius start months recs
  let c ← colorOrKey (centerColor pr) .key
  .ok ((pr, c, p), recs)

/-- `geocenter_processing_centers` (geocenter_processing_centers.py:62-161).  `DEG1` after the loop is the
series of the *last* center; without centers it is a NameError.  (KeyErrors of the colours come with the first
panel of a center; the model reports a ValueError of a later panel first.) -/
noncomputable def processingCenters (read : String → Except Err (List Rec)) (radius : ℝ) (procs : List String)
    (drel : String) (start stop : ℤ) (missing : List ℤ) : Except Err Figure := do
  let ls ← procs.mapM (centerLine read radius drel start (monthsOf start stop missing))
  match ls.getLast? with
  | none => .error .name
  | some l =>
    let g ← span l.2
    .ok ⟨ls.map (·.1), g⟩

/-- name of the file of an ocean model (geocenter_ocean_models.py:87) -/
def modelFile (proc drel mdl : String) : String := proc ++ "_" ++ drel ++ "_" ++ mdl ++ "_SLF_iter.txt"

/-- `plot_colors` (geocenter_ocean_models.py:79) -/
def modelColors : List String := ["darkorange", "darkorchid", "mediumseagreen", "dodgerblue", "0.4"]

/-- One ocean model (geocenter_ocean_models.py:85-110); label `mdl.replace('_','-')`. -/
noncomputable def modelLine (read : String → Except Err (List Rec)) (radius : ℝ) (proc drel : String) (start : ℤ)
    (months : List ℤ) (km : String × ℕ) :
    Except Err (String × String × Panels (List (Option ℝ × Option ℝ))) := do
  let recs ← read (modelFile proc drel km.1)
  let p ← draw radius start months recs
  let c ← colorOrKey modelColors[km.2]? .index
  .ok (String.ofList (km.1.toList.map fun c => if c = '_' then '-' else c), c, p)

/-- `geocenter_ocean_models` (geocenter_ocean_models.py:62-150): the span is that of the standard model, read
again (lines 113-115). -/
noncomputable def oceanModels (read : String → Except Err (List Rec)) (radius : ℝ) (proc drel : String)
    (models : List String) (start stop : ℤ) (missing : List ℤ) : Except Err Figure := do
  let ls ← models.zipIdx.mapM (modelLine read radius proc drel start (monthsOf start stop missing))
  let recs ← read (modelFile proc drel (modelOf drel))
  let g ← span recs
  .ok ⟨ls, g⟩

/-- One figure of `geocenter_compare_tellus` (geocenter_compare_tellus.py:72-199) for a center of the fixed
list CSR, GFZ, JPL; the branches for `GFZwPT` cannot be reached. -/
noncomputable def compareTellus (readUCI readTellus : String → Except Err (List Rec)) (radius : ℝ)
    (drel : String) (start stop : ℤ) (missing : List ℤ) (pr : String) : Except Err Figure := do
  let ms := monthsOf start stop missing
  let a ← readUCI (centerFile drel pr)
  let p ← draw radius start ms a
  let b ← readTellus ("TN-13_GEOC_" ++ pr ++ "_" ++ drel ++ ".txt")
  let q ← draw radius start ms b
  let g ← span b
  .ok ⟨[("Iterated SLF", "darkorchid", p), ("JPL Tellus", "mediumseagreen", q)], g⟩

/-! ## Monte Carlo -/

/-- a record with the values of all runs in one panel -/
structure Runs where
  month : ℤ
  time : ℝ
  vals : List ℝ

/-- the rows of `data`: `data[i,:] = val[mm,:]` (geocenter_monte_carlo.py:86-92); rows of NaN are `none` -/
def row (recs : List Runs) (m : ℤ) : Except Err (Option (ℝ × List ℝ)) :=
  match recs.filter fun r => r.month = m with
  | [] => .ok none
  | [r] => .ok (some (r.time, r.vals))
  | _ => .error .value

/-- mean of a row (geocenter_monte_carlo.py:97) -/
noncomputable def rowMean (xs : List ℝ) : ℝ := xs.sum / (xs.length : ℝ)

/-- `data[:,k] - MEAN` at the months that have data (rows of NaN drop out of nansum and nanmax),
geocenter_monte_carlo.py:107-109 -/
noncomputable def deviations (rows : List (List ℝ)) (k : ℕ) : List ℝ :=
  rows.map fun xs => xs.getD k 0 - rowMean xs

/-- `variance[k] = np.nansum((data[:,k] - MEAN)**2)/nvalid` (geocenter_monte_carlo.py:107); without valid
months 0/0 is NaN, whose square root is dropped by nansum, as the 0 here -/
noncomputable def variance (rows : List (List ℝ)) (k : ℕ) : ℝ :=
  ((deviations rows k).map fun d => d ^ 2).sum / (rows.length : ℝ)

/-- `RMS = np.nansum(np.sqrt(variance))/nruns` (geocenter_monte_carlo.py:113) -/
noncomputable def rms (rows : List (List ℝ)) (nruns : ℕ) : ℝ :=
  ((List.range nruns).map fun k : ℕ => Real.sqrt (variance rows k)).sum / (nruns : ℝ)

/-- `np.nanmax(np.abs(data[:,k] - MEAN))`; NaN without valid months (geocenter_monte_carlo.py:108) -/
noncomputable def nanmax (ds : List ℝ) : Option ℝ :=
  match ds with
  | [] => none
  | d :: ds => some (ds.foldl (fun a b => max a |b|) |d|)

/-- the loop that finds `max_var` (geocenter_monte_carlo.py:101, 108-109) -/
noncomputable def maxVar (rows : List (List ℝ)) (nruns : ℕ) : ℝ :=
  (List.range nruns).foldl (fun a k =>
    match nanmax (deviations rows k) with
    | none => a
    | some v => if a < v then v else a) 0

/-- one panel of the Monte Carlo figure: the rows, and sigma and maximum of the label
(geocenter_monte_carlo.py:83-113, 132) -/
noncomputable def mcPanel (months : List ℤ) (recs : List Runs) (nruns : ℕ) :
    Except Err (List (Option (ℝ × List ℝ)) × ℝ × ℝ) := do
  let rows ← months.mapM (row recs)
  let rs := rows.filterMap fun o => o.map (·.2)
  .ok (rows, rms rs nruns, maxVar rs nruns)

/-- the span of the Monte Carlo figure (geocenter_monte_carlo.py:120-123) -/
def mcSpan (recs : List Runs) : Except Err (ℝ × ℝ) :=
  span (recs.map fun r => ⟨r.month, r.time, 0, 0, 0⟩)

end Verif.GeoFigures
