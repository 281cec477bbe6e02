import Verif.Dealias.Model
import Verif.Maps.Model
import Verif.Units.Model

/-!
# Model of `scripts/dealiasing_global_uplift.py`

Archives of AOD1B fields are turned into maps of elastic uplift, one file per month.  Reading of the daily files is that of
Verif.Dealias, grids and summation are those of Verif.Maps, units those of Verif.Units.  Exact real arithmetic.  Love numbers are
given; logs, permissions and attributes other than the units of time are not modelled.
-/
namespace Verif.Uplift
open Verif.Names Verif.Time Verif.SLR Verif.GIA Verif.SpatialIO Verif.Harmonics Verif.Dealias

/-! ## Archives -/

/-- `regex_year` (dealiasing_global_uplift.py:160) -/
def yearRe : Option (List ℕ) → Re
  | none => cat [.chr fun c => c.isDigit, .chr fun c => c.isDigit, .chr fun c => c.isDigit, .chr fun c => c.isDigit]
  | some ys => anyOf (ys.map (zpad 0))

/-- `tx` (dealiasing_global_uplift.py:161) -/
def archRe (YEAR : Option (List ℕ)) : Re :=
  .seq (cat [lit "AOD1B_".toList, .grp 1 (yearRe YEAR), lit "-".toList, .grp 2 digits, lit "_".toList, digits, lit ".".toList,
    .grp 3 (.alt (lit "tar.gz".toList) (lit "tgz".toList))]) .eos

/-- `sorted(tf for tf in grace_dir.iterdir() if tx.match(tf.name))` (dealiasing_global_uplift.py:173, 242) -/
def chosen (YEAR : Option (List ℕ)) (tars : List Tar) : List Tar :=
  (tars.filter fun t => accepts (archRe YEAR) t.name).insertionSort fun a b => a.name ≤ b.name

/-- `YY,MM,SFX = tx.findall(input_file.name).pop()` (dealiasing_global_uplift.py:244): the texts -/
def archDate (YEAR : Option (List ℕ)) (name : Name) : Option (Name × Name) :=
  (findall (archRe YEAR) name).getLast?.map fun c => (group c 1, group c 2)

/-! ## Fields of an archive -/

/-- `i = (int(DD)-1)*nt + c` as an index of an array of length `total` (dealiasing_global_uplift.py:309-313): negative indices count
from the end; `none`: IndexError -/
def slot (nt total : ℕ) (d : ℤ) (c : ℕ) : Option ℕ :=
  let i : ℤ := (d - 1) * nt + c
  if 0 ≤ i ∧ i < total then some i.toNat
  else if i < 0 ∧ 0 ≤ i + total then some (i + total).toNat
  else none

/-- one daily file (dealiasing_global_uplift.py:290-331).  The positions of a day are all valid or all invalid; in the latter case the
first header leads to an exception -/
def readDay (prod : Name) (n nt total : ℕ) (d : ℤ) (lines : List Line) : Res (List (ℕ × Block)) :=
  match (List.range nt).mapM (slot nt total d) with
  | none =>
    match nextHeader prod lines with
    | none => .hangs
    | some _ => .raises
  | some is =>
    match readBlocks prod n nt lines with
    | .ok bs => .ok (is.zip bs)
    | .raises => .raises
    | .hangs => .hangs

/-- the arrays of an archive: at each position the field stored there, if any, otherwise zeros; degrees and orders are those of the
last field read -/
structure Store where
  cols : ℕ → Option Column
  last : List Coef

/-- a field is stored (dealiasing_global_uplift.py:309-328) -/
def put (y m d : ℤ) (s : Store) (x : ℕ × Block) : Store :=
  { cols := Function.update s.cols x.1 (some ⟨y, m, d, x.2⟩), last := x.2.rows }

/-- the loop over the daily files (dealiasing_global_uplift.py:284-331) -/
def readArchive (prod : Name) (n nt total : ℕ) (y m : ℤ) : Store → List Member → Res Store
  | s, [] => .ok s
  | s, mem :: rest =>
    match memberDay mem.name with
    | none => .raises
    | some d =>
      match readDay prod n nt total d mem.text with
      | .hangs => .hangs
      | .raises => .raises
      | .ok xs => readArchive prod n nt total y m (xs.foldl (put y m d) s) rest

/-- date of a position: year, month, day and hour are zero if nothing was stored (dealiasing_global_uplift.py:279-283, 333-334) -/
def timeOf : Option Column → Option ℚ
  | some c => convertCalendarDecimal c.y c.m (day := some (c.d : ℚ)) (hour := some (c.block.hour : ℚ))
  | none => convertCalendarDecimal 0 0 (day := some 0) (hour := some 0)

/-- `hours + 24*(days-1)` (dealiasing_global_uplift.py:342) -/
def hoursOf : Option Column → ℤ
  | some c => c.block.hour + 24 * (c.d - 1)
  | none => 0 + 24 * (0 - 1)

/-- the flattened object `YLMS` (dealiasing_global_uplift.py:271-335) -/
noncomputable def flatOf (L n total : ℕ) (s : Store) (times : List ℚ) : Flat ℝ :=
  { lmax := L, mmax := L, nt := some total
    rows := (List.range n).map fun k : ℕ =>
      { l := ((s.last[k]?).map Coef.l).getD 0
        m := ((s.last[k]?).map Coef.m).getD 0
        c := fun t => (((((s.cols t).bind fun c => c.block.rows[k]?).map Coef.c).getD 0 : ℚ) : ℝ)
        s := fun t => (((((s.cols t).bind fun c => c.block.rows[k]?).map Coef.s).getD 0 : ℚ) : ℝ) }
    time := times, month := times.map calendarToGrace }

/-! ## Maps -/

/-- a file of maps -/
structure Grid where
  lon : List ℚ
  lat : List ℚ
  data : List (List (List ℝ))
  hours : List ℤ
  since : Name

/-- one map (dealiasing_global_uplift.py:344-348) -/
noncomputable def mapAt (eps scalef : ℝ) (L : ℕ) (h : Harm ℝ) (lons lats : List ℚ) (i : ℕ) : Except Maps.Err (List (List ℝ)) :=
  match index h i with
  | .error e => .error (.harm e)
  | .ok y => Maps.synthesis eps scalef 0 L L y lons lats

/-- from fields to maps (dealiasing_global_uplift.py:332-351); `none`: an exception -/
noncomputable def mapsOf (eps scalef : ℝ) (L n total : ℕ) (dfactor : ℕ → ℝ) (lons lats : List ℚ) (since : Name) (s : Store) :
    Option Grid :=
  match (List.range total).mapM fun t => timeOf (s.cols t) with
  | none => none
  | some times =>
    match expand (flatOf L n total s times) with
    | .error _ => none
    | .ok h =>
      match convolve h ((List.range (L + 1)).map dfactor) with
      | .error _ => none
      | .ok h =>
        match (List.range total).mapM (mapAt eps scalef L h lons lats) with
        | .error _ => none
        | .ok data => some ⟨lons, lats, data, (List.range total).map fun t => hoursOf (s.cols t), since⟩

/-! ## The program -/

/-- `DATAFORM` -/
inductive Form where
  | ascii | netCDF4 | HDF5
deriving DecidableEq

/-- `suffix` (dealiasing_global_uplift.py:156) -/
def suffixOf : Form → Name
  | .ascii => "txt".toList
  | .netCDF4 => "nc".toList
  | .HDF5 => "H5".toList

/-- what an output file holds: maps, or nothing -/
inductive Content where
  | maps (g : Grid)
  | empty

/-- files of the output directory with their modification times -/
abbrev Disk := Name → Option (ℚ × Content)

/-- arguments of the program -/
structure Job where
  drel : Name
  dset : Name
  years : Option (List ℕ)
  lons : List ℚ
  lats : List ℚ
  form : Form

/-- `product` (dealiasing_global_uplift.py:136-140) -/
def isProduct (dset : Name) : Bool := dset ∈ ["atm", "ocn", "glo", "oba"].map String.toList

/-- `FILE` (dealiasing_global_uplift.py:248) -/
def outName (j : Job) (YY MM : Name) : Name :=
  "AOD1B_".toList ++ j.drel ++ "_".toList ++ j.dset ++ "_mmCU_".toList ++ YY ++ "_".toList ++ MM ++ ".".toList ++ suffixOf j.form

/-- units of time (dealiasing_global_uplift.py:350-351) -/
def sinceOf (YY MM : Name) : Name := "hours since ".toList ++ YY ++ "-".toList ++ MM ++ "-01T00:00:00".toList

/-- `TEST` (dealiasing_global_uplift.py:250-262) -/
def stale (old : Option (ℚ × Content)) (tar : Tar) : Bool :=
  match old with
  | none => true
  | some (t, _) => decide (t < tar.mtime)

/-- `grid.to_file` (dealiasing_global_uplift.py:353-354; spatial.py:1099-1131).  `to_ascii` opens the file and then fails, because the
array of the maps has three dimensions (spatial.py:746, 756) -/
def save (j : Job) (now : ℚ) (st : Disk) (name : Name) (g : Grid) : Disk × End :=
  if j.form = .ascii then (Function.update st name (some (now, .empty)), .raised)
  else (Function.update st name (some (now, .maps g)), .finished)

/-- the maps of one archive (dealiasing_global_uplift.py:266-351) -/
noncomputable def archiveMaps (eps scalef : ℝ) (dfactor : ℕ → ℝ) (j : Job) (nt L : ℕ) (YY MM : Name) (members : List Member) : Res Grid :=
  match pyInt YY, pyInt MM with
  | some y, some m =>
    match calendarDays y with
    | none => .raises
    | some dpm =>
      match pyIdx dpm (m - 1) with
      | none => .raises
      | some d =>
        let total := nt * (⌊d⌋).toNat
        match readArchive j.dset (nHarmOf L) nt total y m ⟨fun _ => none, []⟩ members with
        | .hangs => .hangs
        | .raises => .raises
        | .ok s =>
          match mapsOf eps scalef L (nHarmOf L) total dfactor j.lons j.lats (sinceOf YY MM) s with
          | none => .raises
          | some g => .ok g
  | _, _ => .raises

/-- one archive (dealiasing_global_uplift.py:242-361): files, list of output files, end -/
noncomputable def archStep (eps scalef : ℝ) (dfactor : ℕ → ℝ) (j : Job) (nt L : ℕ) (now : ℚ) (st : Disk × List Name) (tar : Tar) :
    (Disk × List Name) × End :=
  match archDate j.years tar.name with
  | none => (st, .raised)
  | some (YY, MM) =>
    if stale (st.1 (outName j YY MM)) tar then
      match archiveMaps eps scalef dfactor j nt L YY MM tar.members with
      | .hangs => (st, .hung)
      | .raises => (st, .raised)
      | .ok g =>
        match save j now st.1 (outName j YY MM) g with
        | (d, .finished) => ((d, st.2 ++ [outName j YY MM]), .finished)
        | (d, e) => ((d, st.2), e)
    else (st, .finished)

/-- the loop over the archives: an exception ends the program -/
noncomputable def archLoop (eps scalef : ℝ) (dfactor : ℕ → ℝ) (j : Job) (nt L : ℕ) (now : ℚ) :
    Disk × List Name → List Tar → (Disk × List Name) × End
  | st, [] => (st, .finished)
  | st, t :: ts =>
    let x := archStep eps scalef dfactor j nt L now st t
    if x.2 = .finished then archLoop eps scalef dfactor j nt L now x.1 ts else x

/-- `factors.get('mmCU')` (dealiasing_global_uplift.py:213, 218) -/
noncomputable def upliftFactor (E : Units.Earth) (hl kl ll : ℕ → ℝ) : Option (ℕ → ℝ) := (Units.harmonic E true false hl kl ll {}).mmCU

/-- `dealiasing_global_uplift` (dealiasing_global_uplift.py:99-363) -/
noncomputable def globalUplift (eps scalef : ℝ) (E : Units.Earth) (hl kl ll : ℕ → ℝ) (j : Job) (tars : List Tar) (now : ℚ) (st : Disk) :
    (Disk × List Name) × End :=
  match releaseOf j.drel, upliftFactor E hl kl ll with
  | some (nt, L), some f =>
    if isProduct j.dset then archLoop eps scalef f j nt L now (st, []) (chosen j.years tars) else ((st, []), .raised)
  | _, _ => ((st, []), .raised)

end Verif.Uplift
