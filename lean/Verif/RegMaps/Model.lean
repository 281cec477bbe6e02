import Verif.Maps.Model
import Verif.Time.Model
import Verif.TimeSeries.Model
import Mathlib.Data.List.Sort

/-!
# Model of `scripts/regress_grace_maps.py` and `scripts/piecewise_grace_maps.py`

The monthly maps of `grace_spatial_maps.py` are read back, a function of time is fitted to the series of every cell and the
coefficients, amplitudes, phases and measures of fit are written as maps.  Exact real arithmetic.  A disk is a function from
names to maps.  Attributes other than units, logging and permissions are not modelled; reading a text file always fails, see
`readMonth`.
-/
namespace Verif.RegMaps
open Verif.TimeSeries

/-- exceptions: unknown format, file not found, text file with dates, shapes, no months, unbound name, `None` as cycles,
`regress` raises, breakpoint -/
inductive Err
  | keyError | file | text | shape | noMonths | unbound | typeError | fit | breakpoint
deriving DecidableEq

/-! ## Input -/

/-- options that appear in names; `gw` is the string of the smoothing radius (regress_grace_maps.py:149), `units` the name of
the units (regress_grace_maps.py:160), `unitsName` their abbreviation (regress_grace_maps.py:161) -/
structure Job where
  prefix_ : List Char
  units : List Char
  unitsName : List Char
  gw : List Char
  LMAX : ℕ
  MMAX : ℕ
  DESTRIPE : Bool
  START : ℕ
  END : ℕ
  MISSING : List ℕ
  DATAFORM : List Char

/-- `dict(ascii='txt', netCDF4='nc', HDF5='H5')[DATAFORM]` (regress_grace_maps.py:144) -/
def suffixOf (DATAFORM : List Char) : Except Err (List Char) :=
  if DATAFORM = "ascii".toList then .ok "txt".toList
  else if DATAFORM = "netCDF4".toList then .ok "nc".toList
  else if DATAFORM = "HDF5".toList then .ok "H5".toList
  else .error .keyError

/-- zero padded number -/
def num (w n : ℕ) : List Char :=
  List.replicate (w - (SpatialIO.natDigits n).length) '0' ++ (SpatialIO.natDigits n).map SLR.dchar

/-- the common beginning of all names (regress_grace_maps.py:146-151, 164-166) -/
def Job.stem (j : Job) : List Char :=
  j.prefix_ ++ j.units ++ ['_', 'L'] ++ num 0 j.LMAX ++
    (if j.MMAX ≠ 0 ∧ j.MMAX ≠ j.LMAX then 'M' :: num 0 j.MMAX else []) ++ j.gw ++
    (if j.DESTRIPE then ['_', 'F', 'L'] else [])

/-- name of the map of a month, `'{0}{1}_L{2:d}{3}{4}{5}_{6:03d}.{7}'` (regress_grace_maps.py:164, 194-196) -/
def inName (j : Job) (suffix : List Char) (month : ℕ) : List Char := j.stem ++ '_' :: num 3 month ++ '.' :: suffix

/-- name of a result, `'{0}{1}_L{2:d}{3}{4}{5}_{6}{7}_{8:03d}-{9:03d}.{10}'` (regress_grace_maps.py:166) -/
def outName (j : Job) (suffix label : List Char) (first last : ℕ) : List Char :=
  j.stem ++ '_' :: label ++ '_' :: num 3 first ++ '-' :: num 3 last ++ '.' :: suffix

/-- `sorted(set(np.arange(START,END+1)) - set(MISSING))` (regress_grace_maps.py:169) -/
def months (j : Job) : List ℕ :=
  ((List.range (j.END + 1 - j.START)).map fun i => j.START + i).filter fun m => m ∉ j.MISSING

/-- a map that is read: grid and date -/
structure InMap where
  nlat : ℕ
  nlon : ℕ
  data : ℕ → ℕ → ℝ
  time : ℝ

/-- one month (regress_grace_maps.py:194-209): the map gets the month of its name.  `from_ascii` is called with the default
`date=True`, with which it always raises (spatial.py:188-290; Verif.SpatialIO.ascii_date_fails) -/
def readMonth (disk : List Char → Option InMap) (j : Job) (suffix : List Char) (m : ℕ) : Except Err (ℕ × InMap) :=
  match disk (inName j suffix m) with
  | some x => if j.DATAFORM = "ascii".toList then .error .text else .ok (m, x)
  | none => .error .file

/-- the loop over the months (regress_grace_maps.py:191-210) -/
def load (disk : List Char → Option InMap) (j : Job) (suffix : List Char) : Except Err (List (ℕ × InMap)) :=
  (months j).mapM (readMonth disk j suffix)

/-- series of maps on one grid -/
structure Grid where
  n : ℕ
  nlat : ℕ
  nlon : ℕ
  time : Fin n → ℝ
  month : List ℤ
  data : ℕ → ℕ → Fin n → ℝ

/-- `spatial().from_list(spatial_list)` (regress_grace_maps.py:213; spatial.py:597-666): sorted by date (`np.argsort`; maps of
equal date stay in the order of months here), all on the grid of the first -/
noncomputable def gridOf (maps : List (ℕ × InMap)) : Except Err Grid :=
  match maps with
  | [] => .error .noMonths
  | m0 :: _ =>
    if ∀ m ∈ maps, m.2.nlat = m0.2.nlat ∧ m.2.nlon = m0.2.nlon then
      let l := maps.insertionSort fun a b => a.2.time ≤ b.2.time
      .ok { n := l.length, nlat := m0.2.nlat, nlon := m0.2.nlon, time := fun i => (l.get i).2.time
            month := Time.adjustMonths (l.map fun m => (m.1 : ℤ)), data := fun a b i => (l.get i).2.data a b }
    else .error .shape

/-! ## Terms and labels -/

/-- tidal aliasing periods in days (regress_grace_maps.py:232-241) -/
def tides : List (List Char × ℚ) :=
  [(['Q', '1'], 9.1), (['O', '1'], 13.6), (['P', '1'], 171.2), (['S', '1'], 322.1), (['K', '1'], 2725.4), (['J', '1'], 27.8),
    (['M', '2'], 13.5), (['S', '2'], 161), (['K', '2'], 1362.7)]

/-- `np.isclose(c, (period/365.25))` (regress_grace_maps.py:263) -/
def isclose (a b : ℚ) : Bool := |a - b| ≤ 1 / 10 ^ 8 + 1 / 10 ^ 5 * |b|

/-- what is accumulated by the loop over the cycles: `coef_str`, `amp_str`, `unit_suffix`, the periods of `TERMS` and
`term_index` -/
structure Plan where
  coef : List (List Char)
  amp : List (List Char)
  unit : List (List Char)
  periods : List ℚ
  removed : List ℕ

/-- semi-annual and annual terms (regress_grace_maps.py:247-260) -/
def seasonStep (c : ℚ) (p : Plan) : Plan :=
  if c = 1 / 2 then
    { p with coef := p.coef ++ [['S', 'S'], ['S', 'C']], amp := p.amp ++ [['S', 'E', 'M', 'I']], unit := p.unit ++ [[], []] }
  else if c = 1 then
    { p with coef := p.coef ++ [['A', 'S'], ['A', 'C']], amp := p.amp ++ [['A', 'N', 'N']], unit := p.unit ++ [[], []] }
  else p

/-- tidal aliasing terms (regress_grace_maps.py:262-284) -/
def tideStep (i : ℕ) (c : ℚ) (p : Plan) (t : List Char × ℚ) : Plan :=
  if isclose c (t.2 / 365.25) then
    { coef := p.coef ++ [t.1 ++ ['S', 'G', 'R', 'C'], t.1 ++ ['C', 'G', 'R', 'C']] ++
        [t.1 ++ ['S', 'G', 'F', 'O'], t.1 ++ ['C', 'G', 'F', 'O']]
      amp := p.amp ++ [t.1 ++ ['G', 'R', 'C']] ++ [t.1 ++ ['G', 'F', 'O']]
      unit := p.unit ++ [[], []] ++ [[], []]
      periods := p.periods ++ [t.2]
      removed := p.removed ++ [i] }
  else p

/-- one cycle (regress_grace_maps.py:245-284) -/
def planStep (p : Plan) (ci : ℚ × ℕ) : Plan := tides.foldl (tideStep ci.2 ci.1) (seasonStep ci.1 p)

/-- the loop over the cycles (regress_grace_maps.py:245-284) -/
def plan (p : Plan) (CYCLES : List ℚ) : Plan := CYCLES.zipIdx.foldl planStep p

/-- `np.delete(CYCLES, term_index)` (regress_grace_maps.py:286) -/
def remaining (p : Plan) (CYCLES : List ℚ) : List ℚ := (CYCLES.zipIdx.filter fun ci => ci.2 ∉ p.removed).map (·.1)

/-- `' yr^{0:d}'.format(-o) if o else ''` (regress_grace_maps.py:218) -/
def yearUnit (o : ℕ) : List Char := if o = 0 then [] else " yr^-".toList ++ num 0 o

/-- labels of the polynomial (regress_grace_maps.py:217-218) -/
def polyPlan (ORDER : ℕ) : Plan :=
  { coef := (List.range (ORDER + 1)).map fun o => 'x' :: num 0 o, amp := []
    unit := (List.range (ORDER + 1)).map yearUnit, periods := [], removed := [] }

/-- labels of the two trends (piecewise_grace_maps.py:222-224) -/
def breakPlan : Plan :=
  { coef := [['x', '0'], ['p', 'x', '1'], ['p', 'x', '1']], amp := []
    unit := [[], " yr^-1".toList, " yr^-1".toList], periods := [], removed := [] }

/-! ## Fit and output -/

/-- a map that is written -/
structure Out where
  name : List Char
  units : List Char
  data : ℕ → ℕ → ℝ
  error : Option (ℕ → ℕ → ℝ)

/-- what is kept of the fit of a cell (regress_grace_maps.py:312-326) -/
structure Cell where
  beta : ℕ → ℝ
  error : ℕ → ℝ
  SSE : ℝ
  AIC : ℝ
  BIC : ℝ
  R2Adj : ℝ

/-- the values taken from the result of `regress` or `piecewise` (regress_grace_maps.py:315-326); coefficients are
numbered, there are at least as many as labels -/
def cellOf {n : ℕ} (x : (k : ℕ) × Result n k) : Cell :=
  { beta := at' x.2.beta, error := at' x.2.er.error, SSE := x.2.er.mse * (x.2.st.DOF : ℝ)
    AIC := x.2.st.AIC, BIC := x.2.st.BIC, R2Adj := x.2.st.R2Adj }

/-- files of the coefficients (regress_grace_maps.py:331-347); `span k` are the months in the name -/
def coefFiles (j : Job) (suffix : List Char) (p : Plan) (span : ℕ → ℕ × ℕ) (cell : ℕ → ℕ → Cell) : List Out :=
  (List.range p.coef.length).map fun k =>
    ⟨outName j suffix (p.coef.getD k []) (span k).1 (span k).2, j.unitsName ++ p.unit.getD k [],
      fun a b => (cell a b).beta k, some fun a b => (cell a b).error k⟩

/-- amplitude of the pair of coefficients from `k` on (regress_grace_maps.py:357-359) -/
noncomputable def ampOf (c : Cell) (k : ℕ) : ℝ := (amplitude (c.beta k) (c.beta (k + 1))).1

/-- phase in degrees, `-180:180` moved to `0:360` (regress_grace_maps.py:357-362) -/
noncomputable def phaseOf (c : Cell) (k : ℕ) : ℝ :=
  if (amplitude (c.beta k) (c.beta (k + 1))).2 < 0 then (amplitude (c.beta k) (c.beta (k + 1))).2 + 360
  else (amplitude (c.beta k) (c.beta (k + 1))).2

/-- error of the amplitude (regress_grace_maps.py:364-366); NaN, here 0, where the amplitude is zero -/
noncomputable def ampError (c : Cell) (k : ℕ) : ℝ :=
  Real.sqrt ((c.error k * c.beta k / ampOf c k) ^ 2 + (c.error (k + 1) * c.beta (k + 1) / ampOf c k) ^ 2)

/-- error of the phase (regress_grace_maps.py:368-370); NaN, here 0, where the amplitude is zero -/
noncomputable def phaseError (c : Cell) (k : ℕ) : ℝ :=
  180 / Real.pi * Real.sqrt ((c.error k * c.beta (k + 1) / ampOf c k ^ 2) ^ 2 +
    (c.error (k + 1) * c.beta k / ampOf c k ^ 2) ^ 2)

/-- files of amplitudes and phases (regress_grace_maps.py:350-394); `lead` is the number of coefficients that do not belong to
a cycle and `ext` the ending of the amplitude's label: `_AMPL`, and nothing in piecewise_grace_maps.py:382 -/
noncomputable def ampFiles (j : Job) (suffix ext : List Char) (p : Plan) (lead : ℕ) (cell : ℕ → ℕ → Cell) : List Out :=
  p.amp.zipIdx.flatMap fun fi =>
    [⟨outName j suffix (fi.1 ++ ext) j.START j.END, j.unitsName, fun a b => ampOf (cell a b) (lead + 2 * fi.2),
        some fun a b => ampError (cell a b) (lead + 2 * fi.2)⟩,
     ⟨outName j suffix (fi.1 ++ "_PHASE".toList) j.START j.END, "degrees".toList,
        fun a b => phaseOf (cell a b) (lead + 2 * fi.2), some fun a b => phaseError (cell a b) (lead + 2 * fi.2)⟩]

/-- files of the measures of fit (regress_grace_maps.py:397-416); `label` is the label of the highest power, `px1` in
piecewise_grace_maps.py:415 -/
def fitFiles (j : Job) (suffix label : List Char) (cell : ℕ → ℕ → Cell) : List Out :=
  [⟨outName j suffix ("SSE_".toList ++ label) j.START j.END, "SSE".toList, fun a b => (cell a b).SSE, none⟩,
   ⟨outName j suffix ("AIC_".toList ++ label) j.START j.END, "AIC".toList, fun a b => (cell a b).AIC, none⟩,
   ⟨outName j suffix ("BIC_".toList ++ label) j.START j.END, "BIC".toList, fun a b => (cell a b).BIC, none⟩,
   ⟨outName j suffix ("R2Adj_".toList ++ label) j.START j.END, "R2Adj".toList, fun a b => (cell a b).R2Adj, none⟩]

/-- functions of scipy and numpy: error function, quantiles of Student's distribution, machine epsilon -/
structure Lib where
  erf : ℝ → ℝ
  tppf : ℝ → ℝ → ℝ
  eps : ℝ

/-- `CONF = 0.95`, no correction of the Akaike criterion (regress_grace_maps.py:292, regress.py:101) -/
noncomputable def fitOpts : TimeSeries.Opts := { STDEV := 0, CONF := 0.95, AICc := false }

/-- the extra terms (regress_grace_maps.py:265-266) -/
noncomputable def termsOf {n : ℕ} (t : Fin n → ℝ) (p : Plan) : List (Fin n → ℝ) :=
  p.periods.flatMap fun q : ℚ => aliasingTerms t (q : ℝ)

/-- `regress` for one cell (regress_grace_maps.py:312-313) -/
noncomputable def fitCell (lib : Lib) (g : Grid) (ORDER : ℕ) (CYCLES : List ℚ) (p : Plan) (a b : ℕ) :
    Option ((k : ℕ) × Result g.n k) :=
  regress lib.erf lib.tppf lib.eps g.time (g.data a b) ORDER ((remaining p CYCLES).map fun c : ℚ => (c : ℝ)) (termsOf g.time p)
    (.scalar 0) false .ellipsis fitOpts

/-- `piecewise` for one cell (piecewise_grace_maps.py:319-321) -/
noncomputable def breakCell (lib : Lib) (g : Grid) (index : ℕ) (CYCLES : List ℚ) (p : Plan) (a b : ℕ) :
    Option ((k : ℕ) × Result g.n k) :=
  piecewise lib.erf lib.tppf lib.eps g.time (g.data a b) none (some index) ((remaining p CYCLES).map fun c : ℚ => (c : ℝ))
    (termsOf g.time p) (.scalar 0) false fitOpts

open scoped Classical in
/-- the loops over the cells (regress_grace_maps.py:309-326): an exception of any cell ends the program -/
noncomputable def cells (g : Grid) (fit : ℕ → ℕ → Option ((k : ℕ) × Result g.n k)) : Except Err (ℕ → ℕ → Cell) :=
  if ∀ a < g.nlat, ∀ b < g.nlon, (fit a b).isSome then .ok fun a b => match fit a b with
    | some x => cellOf x
    | none => ⟨0, 0, 0, 0, 0, 0⟩
  else .error .fit

/-- reading (regress_grace_maps.py:139-214) -/
noncomputable def input (disk : List Char → Option InMap) (j : Job) : Except Err (List Char × Grid) :=
  match suffixOf j.DATAFORM with
  | .error e => .error e
  | .ok suffix =>
    match load disk j suffix with
    | .error e => .error e
    | .ok maps =>
      match gridOf maps with
      | .error e => .error e
      | .ok g => .ok (suffix, g)

/-- `regress_grace_maps` (regress_grace_maps.py:120-419): the files in the order in which they are written.  `CYCLES = none` is
the default, which cannot be iterated; for orders above 2 the names of the terms are not assigned (raised here before the fit,
in the code at the first use) -/
noncomputable def regressMaps (lib : Lib) (disk : List Char → Option InMap) (j : Job) (ORDER : ℕ) (CYCLES : Option (List ℚ)) :
    Except Err (List Out) :=
  match input disk j with
  | .error e => .error e
  | .ok (suffix, g) =>
    match CYCLES with
    | none => .error .typeError
    | some cycles =>
      if 2 < ORDER then .error .unbound
      else
        match cells g (fitCell lib g ORDER cycles (plan (polyPlan ORDER) cycles)) with
        | .error e => .error e
        | .ok cell =>
          .ok (coefFiles j suffix (plan (polyPlan ORDER) cycles) (fun _ => (j.START, j.END)) cell ++
            ampFiles j suffix "_AMPL".toList (plan (polyPlan ORDER) cycles) (1 + ORDER) cell ++
            fitFiles j suffix ('x' :: num 0 ORDER) cell)

/-- the months in the names of the trends (piecewise_grace_maps.py:291-297) -/
def spans (j : Job) (BREAKPOINT k : ℕ) : ℕ × ℕ :=
  (if k = 2 then BREAKPOINT else j.START, if k = 1 then BREAKPOINT else j.END)

/-- `piecewise_grace_maps` (piecewise_grace_maps.py:121-427) -/
noncomputable def piecewiseMaps (lib : Lib) (disk : List Char → Option InMap) (j : Job) (BREAKPOINT : ℕ)
    (CYCLES : Option (List ℚ)) : Except Err (List Out) :=
  match input disk j with
  | .error e => .error e
  | .ok (suffix, g) =>
    if (BREAKPOINT : ℤ) ∉ g.month then .error .breakpoint
    else
      match CYCLES with
      | none => .error .typeError
      | some cycles =>
        match cells g (breakCell lib g (g.month.idxOf (BREAKPOINT : ℤ)) cycles (plan breakPlan cycles)) with
        | .error e => .error e
        | .ok cell =>
          .ok (coefFiles j suffix (plan breakPlan cycles) (spans j BREAKPOINT) cell ++
            ampFiles j suffix [] (plan breakPlan cycles) 3 cell ++ fitFiles j suffix ['p', 'x', '1'] cell)

end Verif.RegMaps
