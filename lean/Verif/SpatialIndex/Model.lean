import Verif.SpatialIO.Dataset
import Verif.HarmIO.Index

/-!
# Model of spatial.index, to_index, from_index and from_list on arrays

Objects and data files are those of `Verif/SpatialIO/Dataset.lean`; paths and the text of an index file are those of
`Verif/HarmIO/Index.lean` (the code is the same: spatial.py:167-186 and 577-592).  Months, errors and file names in the object are not
modelled.  A file that does not exist is an error here, the code looks for a name that agrees without case first.
-/
namespace Verif.SpatialIndex
open Verif.SpatialIO.Data
open Verif.HarmIO.Data (Path compress resolve splitLines keepLine)

/-- `a[:,:,i]`; `none` is an `IndexError` -/
def slice {α : Type} [Inhabited α] (a : Arr α) (i : ℕ) : Option (Arr α) :=
  match a.shape with
  | [r, c, n] => if i < n then some ⟨[r, c], (List.range (r * c)).map fun k : ℕ => a.flat.getD (k * n + i) default⟩ else none
  | _ => none

/-- `index` (spatial.py:1308-1342) with a number that is not negative.  Whatever goes wrong with the data is passed over and leaves an
object without data (`none`); the dates raise.  `squeeze` then updates the mask, which is impossible without data
(spatial.py:1291-1306, 1170-1180).  The attributes are not taken over -/
def index (date : Bool) (o : Sp) (i : ℕ) : Except Err (Option Sp) :=
  if date = true ∧ ¬ (o.time.shape ≠ [] ∧ i < o.time.flat.length) then .error .indexError
  else
    match slice o.data i, slice o.mask i with
    | some d, some m => .ok (some (updateMask
        { o with
          data := squeeze d, mask := squeeze m
          time := if date then ⟨[], [o.time.flat.getD i none]⟩ else ⟨[], []⟩
          attrs := .dict [] }))
    | _, _ => if o.fill.isSome then .error .typeError else .ok none

/-- one file of the index (spatial.py:1081-1095); an object without data cannot be written, and a format that is not known is passed
over (`wr = none`) -/
def writeEntry (wr : Option (Sp → Option File → Except Err File)) (date : Bool) (home : Path) (o : Sp)
    (st : (Path → Option File) × List Char) (e : Path × ℕ) : Except Err ((Path → Option File) × List Char) := do
  let s ← index date o e.2
  match wr, s with
  | none, _ => return (st.1, st.2 ++ compress home e.1 ++ ['\n'])
  | some _, none => .error .typeError
  | some wr, some s => do
    let c ← wr s (st.1 e.1)
    return (Function.update st.1 e.1 (some c), st.2 ++ compress home e.1 ++ ['\n'])

/-- `to_index` (spatial.py:1052-1097): the files and the text of the index.  An error leaves the files written before, which is not
modelled -/
def toIndex (wr : Option (Sp → Option File → Except Err File)) (date : Bool) (home : Path) (o : Sp) (files : List Path)
    (fs : Path → Option File) : Except Err ((Path → Option File) × List Char) :=
  files.zipIdx.foldlM (writeEntry wr date home o) (fs, [])

/-- writer of netCDF4 or HDF5 files (spatial.py:1090-1095) -/
def dataWriter (hdf5 : Bool) (w : WOpts) (o : Sp) (old : Option File) : Except Err File := do
  let r ← write hdf5 w old o
  return r.2

/-- one value of the array of a list of objects in the order `p` (spatial.py:644-652) -/
def cellOf {α : Type} (get : Sp → List α) (z : α) (objs : List Sp) (p : List ℕ) (n k : ℕ) : α :=
  match objs[p.getD (k % n) 0]? with
  | some o => (get o).getD (k / n) z
  | none => z

/-- the list of the attributes that are not empty (spatial.py:653-655); lists of attributes are left out here -/
def metaOf (objs : List Sp) (p : List ℕ) : Meta :=
  .list (p.filterMap fun i => (objs[i]?).bind fun o =>
    match o.attrs with
    | .dict [] => none
    | .dict d => some d
    | .list _ => none)

/-- `from_list` (spatial.py:597-666) with the order `p`; an object of other dimensions or with several dates does not fit
(arrays that numpy would broadcast are not modelled) -/
def fromList (date : Bool) (objs : List Sp) (p : List ℕ) : Except Err Sp :=
  match objs with
  | [] => .error .indexError
  | o0 :: _ =>
    match o0.data.shape with
    | r :: c :: _ =>
      if objs.all fun o => decide (o.data.shape = [r, c] ∧ (date = true → o.time.flat.length = 1)) then
        .ok (updateMask
          { lon := o0.lon, lat := o0.lat
            time := if date then ⟨[objs.length], p.map fun i => ((objs[i]?).bind fun o => o.time.flat[0]?).getD none⟩ else ⟨[], []⟩
            data := ⟨[r, c, objs.length],
              (List.range (r * c * objs.length)).map fun k : ℕ => cellOf (fun o => o.data.flat) (some 0) objs p objs.length k⟩
            mask := ⟨[r, c, objs.length],
              (List.range (r * c * objs.length)).map fun k : ℕ => cellOf (fun o => o.mask.flat) false objs p objs.length k⟩
            fill := o0.fill
            attrs := metaOf objs p })
      else .error .shape
    | _ => .error .indexError

/-- one file of the index is read (spatial.py:584-594) -/
def readEntry (names : Names) (date : Bool) (home cwd : Path) (fs : Path → Option File) (line : List Char) : Except Err Sp :=
  match fs (resolve home cwd line) with
  | none => .error .keyError
  | some f => read names date f

/-- `from_index` (spatial.py:546-595) of netCDF4 or HDF5 files (`known`), or with a format that is not known -/
def fromIndex (known : Bool) (names : Names) (date : Bool) (home cwd : Path) (fs : Path → Option File) (text : List Char)
    (p : List ℕ) : Except Err Sp := do
  let objs ← if known then ((splitLines text).filter keepLine).mapM (readEntry names date home cwd fs) else .ok []
  fromList date objs p

end Verif.SpatialIndex
