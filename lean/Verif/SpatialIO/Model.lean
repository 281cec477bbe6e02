import Verif.SpatialIO.Format

/-!
# Model of spatial.to_ascii and spatial.from_ascii

Arithmetic is exact; a grid value is a number or NaN (`none`).  Only grids without a time dimension can be written
(`np.nonzero` of a three-dimensional array gives three index arrays).  Opening and decompressing the file is not
modelled: the file is its list of lines.
-/
namespace Verif.SpatialIO
open Verif.SLR Verif.GIA

inductive Err where
  | typeError | keyError | indexError | valueError | overflow
deriving DecidableEq

/-- a `spatial` object of one date (spatial.py:122-136); `time = none` stands for a missing time or an array, which
cannot be formatted; `fill = some none` is the fill value NaN -/
structure Grid where
  lon : List ℚ
  lat : List ℚ
  data : ℕ → ℕ → Option ℚ
  mask : ℕ → ℕ → Bool
  error : Option (ℕ → ℕ → Option ℚ)
  time : Option ℚ
  fill : Option (Option ℚ)

/-- `==` of numpy with the fill value: false if there is none or one side is NaN -/
def isFill (f : Option (Option ℚ)) (x : Option ℚ) : Bool :=
  match f, x with
  | some (some a), some b => a = b
  | _, _ => false

/-- `np.nonzero((self.data != self.fill_value) & (~self.mask))` in row order (spatial.py:756) -/
def validCells (g : Grid) : List (ℕ × ℕ) :=
  (List.range g.lat.length).flatMap fun i : ℕ =>
    ((List.range g.lon.length).filter fun j : ℕ => !isFill g.fill (g.data i j) && !g.mask i j).map fun j : ℕ => (i, j)

/-- the fields of a line joined with blanks -/
def joinFields : List (List Char) → List Char
  | [] => []
  | [a] => a
  | a :: b :: r => a ++ ' ' :: joinFields (b :: r)

/-- one line of the file (spatial.py:746-763) -/
def writeLine (g : Grid) (date : Bool) (c : ℕ × ℕ) : Except Err (List Char) :=
  let coords := [fmtF 10 4 (g.lon.getD c.2 0), fmtF 10 4 (g.lat.getD c.1 0), fmtV 12 4 (g.data c.1 c.2)]
  let errs := match g.error with
    | some e => [fmtV 12 4 (e c.1 c.2)]
    | none => []
  match date, g.time with
  | false, _ => .ok (joinFields (coords ++ errs))
  | true, some t => .ok (joinFields (coords ++ errs ++ [fmtF 10 4 t]))
  | true, none => .error .typeError

/-- `to_ascii`: the lines of the file (spatial.py:727-766) -/
def toAscii (g : Grid) (date : Bool) : Except Err (List (List Char)) := (validCells g).mapM (writeLine g date)

/-- keyword arguments of `from_ascii` (spatial.py:188-228): a list containing `None` is `none` -/
structure Opts where
  spacing : Option (ℚ × ℚ)
  extent : Option (ℚ × ℚ × ℚ × ℚ)
  nlat : ℕ
  nlon : ℕ
  columns : List String
  header : ℕ
  date : Bool

/-- `np.linspace(a, b, n)` -/
def linspace (a b : ℚ) (n : ℕ) : List ℚ := (List.range n).map fun i : ℕ => a + i * ((b - a) / ((n : ℚ) - 1))

/-- `np.arange(a, b, h)`: `⌈(b - a)/h⌉` values -/
def arange (a b h : ℚ) : List ℚ := (List.range ⌈(b - a) / h⌉.toNat).map fun i : ℕ => a + i * h

/-- dimensions and steps: longitudes, latitudes, longitude step, latitude step (spatial.py:254-272).  A number of rows
or columns which is `None` or `0` is `0`.  With one row or column the step `self.lat[1] - self.lat[0]` of the first branch
does not exist; a step of zero cannot be used in `np.arange` -/
def dims (o : Opts) : Except Err (List ℚ × List ℚ × ℚ × ℚ) :=
  match o.extent, o.spacing with
  | some (x0, x1, y0, y1), sp =>
    if o.nlat ≠ 0 ∧ o.nlon ≠ 0 then
      if o.nlat = 1 ∨ o.nlon = 1 then .error .indexError
      else
        let lat := linspace y1 y0 o.nlat
        let lon := linspace x0 x1 o.nlon
        .ok (lon, lat, |lon.getD 1 0 - lon.getD 0 0|, |lat.getD 1 0 - lat.getD 0 0|)
    else
      match sp with
      | some (dlon, dlat) =>
        if dlon = 0 ∨ dlat = 0 then .error .valueError
        else .ok (arange x0 (x1 + dlon) dlon, arange y1 (y0 - dlat) dlat, dlon, dlat)
      | none => .error .valueError
  | none, some (dlon, dlat) =>
    if o.nlat ≠ 0 ∧ o.nlon ≠ 0 then .ok (List.replicate o.nlon 0, List.replicate o.nlat 0, dlon, dlat)
    else .error .valueError
  | none, none => .error .valueError

/-- `np.int64(x)`: towards zero -/
def trunc (x : ℚ) : ℤ := if 0 ≤ x then ⌊x⌋ else ⌈x⌉

/-- an index of Python: negative values count from the end -/
def pyIndex (n : ℕ) (k : ℤ) : Option ℕ :=
  if 0 ≤ k ∧ k < n then some k.toNat
  else if k < 0 ∧ -(n : ℤ) ≤ k then some (k + n).toNat
  else none

/-- `d[c]` for `d = {c:r for c,r in zip(columns, rx.findall(line))}`, as a number (spatial.py:286-292).  `[EeD]` finds
exactly what `[Ee]` finds after replacing `D` by `E`, so the replacement comes first here; the last of two equal column
names counts -/
def field (columns : List String) (line : List Char) (c : String) : Except Err ℚ :=
  match ((columns.zip (rxAll (dToE line))).reverse).lookup c with
  | none => .error .keyError
  | some t =>
    match pyFloat t with
    | some x => .ok x
    | none => .error .valueError

/-- an assignment into an array of two dimensions -/
def setCell {α : Type} (a : ℕ → ℕ → α) (i j : ℕ) (x : α) : ℕ → ℕ → α :=
  fun r c => if r = i ∧ c = j then x else a r c

/-- one line of the file is read (spatial.py:283-299).  Division by a step of zero gives infinity or NaN, which is not an
integer -/
def readLine (columns : List String) (date : Bool) (dlon dlat : ℚ) (g : Grid) (line : List Char) : Except Err Grid := do
  let x ← field columns line "lon"
  if dlon = 0 then throw .overflow
  let y ← field columns line "lat"
  if dlat = 0 then throw .overflow
  let v ← field columns line "data"
  match pyIndex g.lat.length ⌊(90 - y) / dlat⌋, pyIndex g.lon.length (trunc (x / dlon)) with
  | some i, some j =>
    let g' := { g with
      data := setCell g.data i j (some v)
      mask := setCell g.mask i j false
      lon := g.lon.set j x
      lat := g.lat.set i y }
    if date then
      let t ← field columns line "time"
      return { g' with time := some t }
    else return g'
  | _, _ => throw .indexError

/-- `update_mask` without an `error` attribute (spatial.py:1170-1180) -/
def updateMask (g : Grid) : Grid :=
  match g.fill with
  | none => g
  | some f =>
    let m : ℕ → ℕ → Bool := fun i j => g.mask i j || isFill g.fill (g.data i j) || (g.data i j).isNone
    { g with mask := m, data := fun i j => if m i j then f else g.data i j }

/-- `spatial(fill_value=fill).from_ascii(filename, **opts)` on the lines of the file (spatial.py:188-308).  The name `time`
is always removed from the columns.  The months are not modelled -/
def fromAscii (fill : Option (Option ℚ)) (o : Opts) (file : List (List Char)) : Except Err Grid := do
  let d ← dims o
  let g0 : Grid := { lon := d.1, lat := d.2.1, data := fun _ _ => some 0, mask := fun _ _ => false, error := none,
                     time := none, fill := fill }
  let columns := o.columns.filter fun c => c != "time"
  let g ← (file.drop o.header).foldlM (readLine columns o.date d.2.2.1 d.2.2.2) g0
  return updateMask g

end Verif.SpatialIO
