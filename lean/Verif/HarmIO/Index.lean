import Verif.HarmIO.Dataset
import Verif.HarmIO.Model

/-!
# Model of harmonics.to_index and harmonics.from_index

Paths are lists of components of an absolute path; a file system is a map from paths to contents.  The home directory does
not change between writing and reading.  Only files with dates are modelled (`date=True`).  A file that does not exist is an
error here, the code looks for a name that agrees without case first.
-/
namespace Verif.HarmIO.Data
open Verif.Harmonics

abbrev Path := List (List Char)

/-- components behind a slash each -/
def slashed (p : Path) : List Char := p.flatMap fun c => '/' :: c

/-- `str(self.compressuser(f))` of an absolute path (harmonics.py:194-213): relative to the home directory if it is in it -/
def compress (home p : Path) : List Char :=
  if home.isPrefixOf p then '~' :: slashed (p.drop home.length) else if p = [] then ['/'] else slashed p

/-- components of a text that holds a path -/
def splitSlash : List Char → List (List Char)
  | [] => [[]]
  | c :: cs =>
    if c = '/' then [] :: splitSlash cs
    else
      match splitSlash cs with
      | [] => [[c]]
      | w :: ws => (c :: w) :: ws

/-- `pathlib.Path(text).expanduser().absolute()`: empty components and dots are dropped.  The home directories of other
users are not modelled: `~name` stays a name here -/
def resolve (home cwd : Path) (text : List Char) : Path :=
  let ws := (splitSlash text).filter fun w => w ≠ [] ∧ w ≠ ['.']
  if text.head? = some '/' then ws
  else
    match ws with
    | ['~'] :: rest => home ++ rest
    | ws => cwd ++ ws

/-- characters at which `str.splitlines` ends a line -/
def isBreak (c : Char) : Bool := c.toNat ∈ [0x0a, 0x0b, 0x0c, 0x0d, 0x1c, 0x1d, 0x1e, 0x85, 0x2028, 0x2029]

/-- `str.splitlines` (harmonics.py:605); the characters `\r\n` count as one break in Python, as two here, which makes an
additional empty line -/
def splitLines : List Char → List (List Char)
  | [] => []
  | c :: cs =>
    if isBreak c then [] :: splitLines cs
    else
      match splitLines cs with
      | [] => [[c]]
      | w :: ws => (c :: w) :: ws

/-- `parser.match(l)` with `^(?!\#|\%|$)` (harmonics.py:602-605) -/
def keepLine (l : List Char) : Bool := l ≠ [] ∧ l.head? ≠ some '#' ∧ l.head? ≠ some '%'

variable {K : Type} [_root_.Field K]

/-- errors of the modelled methods of the class -/
def liftErr {α : Type} : Except Harmonics.Err α → Except Err α
  | .ok x => .ok x
  | .error .valueError => .error .valueError
  | .error .indexError => .error .indexError
  | .error .typeError => .error .typeError
  | .error (.ioError _) => .error .notFound

/-- one file of the index (harmonics.py:1086-1100); `wr` writes a single field over an existing content, `none` is a
format that is not known, for which nothing is written -/
def writeEntry {C : Type} (wr : Option (Harm K → Option C → Except Err C)) (home : Path) (h : Harm K)
    (st : (Path → Option C) × List Char) (e : Path × ℕ) : Except Err ((Path → Option C) × List Char) := do
  let o ← liftErr (index h e.2)
  match wr with
  | none => return (st.1, st.2 ++ compress home e.1 ++ ['\n'])
  | some wr => do
    let c ← wr o (st.1 e.1)
    return (Function.update st.1 e.1 (some c), st.2 ++ compress home e.1 ++ ['\n'])

/-- `to_index` (harmonics.py:1057-1102): the files and the text of the index.  An error leaves the files written before,
which is not modelled -/
def toIndex {C : Type} (wr : Option (Harm K → Option C → Except Err C)) (home : Path) (h : Harm K) (files : List Path)
    (fs : Path → Option C) : Except Err ((Path → Option C) × List Char) :=
  files.zipIdx.foldlM (writeEntry wr home h) (fs, [])

/-- one file of the index is read (harmonics.py:609-618) -/
def readEntry {C : Type} (rd : C → Except Err (Harm K)) (home cwd : Path) (fs : Path → Option C) (line : List Char) :
    Except Err (Harm K) :=
  match fs (resolve home cwd line) with
  | none => .error .notFound
  | some c => rd c

/-- the objects of the list; with an unknown format there are none (harmonics.py:606-618) -/
def readEntries {C : Type} (rd : Option (C → Except Err (Harm K))) (home cwd : Path) (fs : Path → Option C) (text : List Char) :
    Except Err (List (Harm K)) :=
  match rd with
  | none => .ok []
  | some rd => ((splitLines text).filter keepLine).mapM (readEntry rd home cwd fs)

/-- `from_index` (harmonics.py:574-620); `p` is the order in which `from_list` takes the objects.  An object with more than
one date cannot be put into the series -/
def fromIndex {C : Type} (rd : Option (C → Except Err (Harm K))) (home cwd : Path) (fs : Path → Option C) (text : List Char)
    (p : List ℕ) : Except Err (Harm K) := do
  let objs ← readEntries rd home cwd fs text
  if objs.any fun o => o.nt.isSome then .error .valueError
  else liftErr (fromList objs p)

/-- writer of netCDF4 or HDF5 files; an indexed object has no attributes -/
def dataWriter (hdf5 : Bool) (w : WOpts) (h : Harm K) (old : Option (File K)) : Except Err (File K) := do
  let r ← write hdf5 w old ⟨h, []⟩
  return r.2

/-- reader of netCDF4 or HDF5 files -/
def dataReader (f : File K) : Except Err (Harm K) := do
  let out ← read true f
  return out.h

/-- a single field as an object of the text files -/
def toField (h : Harm ℚ) : Field where
  lmax := h.lmax
  mmax := h.mmax
  clm l m := some (h.clm l m 0)
  slm l m := some (h.slm l m 0)
  time := h.time.head?
  month := h.month.head?

/-- and back; a file has no NaN -/
def ofField (f : Field) : Harm ℚ where
  lmax := f.lmax
  mmax := f.mmax
  nt := none
  clm l m _ := (f.clm l m).getD 0
  slm l m _ := (f.slm l m).getD 0
  time := f.time.toList
  month := f.month.toList

/-- errors of the text files -/
def liftAscii {α : Type} : Except HarmIO.Err α → Except Err α
  | .ok x => .ok x
  | .error .typeError => .error .typeError
  | .error .indexError => .error .indexError
  | .error _ => .error .valueError

/-- writer of text files -/
def asciiWriter (h : Harm ℚ) (_old : Option (List (List Char))) : Except Err (List (List Char)) :=
  liftAscii (toAscii (toField h) true)

/-- reader of text files -/
def asciiReader (f : List (List Char)) : Except Err (Harm ℚ) := do
  let o ← liftAscii (fromAscii true f)
  return ofField o

end Verif.HarmIO.Data
