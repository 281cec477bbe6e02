import Verif.Gfc.Model
import Verif.Sync.Model
import Verif.Names.Model

/-!
# Model of the main function of `scripts/itsg_graz_grace_sync.py`

The local folders `GRAZ/<version>/<product>` hold lists of named files.  The remote directories are listings with
contents and times; a transfer delivers pieces (`Verif.Sync`).  Not modelled: permissions, the log file, the connection
test and failures during a transfer (see `Verif.Sync` for interruptions).  The listing of the program, names and times
sorted by name, is kept as one list of records.
-/
namespace Verif.Graz
open Verif.Names Verif.Sync

/-- the compiled pattern `R1` (itsg_graz_grace_sync.py:88-101): that of `parse_gfc_file`, without regard to case -/
def rx : Re := Gfc.itsgRe true

/-- `re.search(pattern, name)` in `http_list` (utilities.py:724-729) -/
def searches (n : Name) : Bool := n.tails.any (accepts rx)

/-- `DREL` (itsg_graz_grace_sync.py:102-107) -/
def drel (release : String) : Option String :=
  [("Grace2014", "2014"), ("Grace2016", "2016"), ("Grace2018", "2018"), ("Grace_operational", "2018")].lookup release

/-- `DEALIASING` (itsg_graz_grace_sync.py:108-113) -/
def dealiasing (prd : Name) : Option String :=
  [("atmosphere".toList, "GAA"), ("ocean".toList, "GAB"), ("dealiasing".toList, "GAC"),
   ("oceanBottomPressure".toList, "GAD")].lookup prd

/-- what the program raises -/
inductive Err where
  /-- the listing fails -/
  | list
  /-- `IndexError` of `pop` -/
  | index
  /-- `KeyError` of one of the two dictionaries -/
  | key
deriving DecidableEq

/-- `R1.findall(colname).pop()` and the folder of the product (itsg_graz_grace_sync.py:122-124) -/
def folderOf (name : Name) : Except Err String :=
  match (findall rx name).getLast? with
  | none => .error .index
  | some c =>
    match dealiasing (group c 2) with
    | none => .error .key
    | some ds => .ok ds

/-- a local folder: its files in the order of `iterdir` -/
abbrev Folder := List (Name × LFile)

/-- the folders below `GRAZ` that exist, by version and product -/
abbrev Store := String × String → Option Folder

/-- write a file of a folder -/
def put (f : Folder) (n : Name) (x : LFile) : Folder :=
  if f.any (fun e => e.1 == n) then f.map fun e => if e.1 = n then (n, x) else e else f ++ [(n, x)]

/-- `local_dir.mkdir(parents=True, exist_ok=True)` (itsg_graz_grace_sync.py:126, 142) -/
def mkdir (s : Store) (k : String × String) : Store := fun q => if q = k then some ((s k).getD []) else s q

/-- what does not belong to the code: transfers, the clock when the index is written, the encoding of texts -/
structure Env where
  x : Name → Transfer
  now : ℚ
  enc : Name → Utilities.Bytes

variable (w : Env) (o : Opts)

/-- the file after `http_pull_file` (itsg_graz_grace_sync.py:177-214); there are no checksums here -/
def pulled (r : Remote) (f : Option LFile) : Option LFile :=
  pull (H := Utilities.Bytes) id { o with CHECKSUM := false } (w.x r.name) none r f

/-- `http_pull_file(remote_file, remote_mtime, local_dir.joinpath(colname))` in an existing folder -/
def fetch (k : String × String) (s : Store) (r : Remote) : Store := fun q =>
  if q = k then (s k).map fun f =>
    match pulled w o r (f.lookup r.name) with
    | some x => put f r.name x
    | none => f
  else s q

/-- names and times that fit the pattern, sorted by name (`http_list`, itsg_graz_grace_sync.py:118-119, 137-138) -/
def listing (files : List Remote) : List Remote :=
  (files.filter fun r => searches r.name).insertionSort fun a b => a.name ≤ b.name

/-- the loop over the dealiasing files (itsg_graz_grace_sync.py:121-132) -/
def background (ver : Option String) : List Remote → Store → Store × Option Err
  | [], s => (s, none)
  | r :: rs, s =>
    match folderOf r.name, ver with
    | .error e, _ => (s, some e)
    | .ok _, none => (s, some .key)
    | .ok ds, some v => background ver rs (fetch w o (v, ds) (mkdir s (v, ds)) r)

/-- the lines of an index: files whose name begins with a match, sorted (itsg_graz_grace_sync.py:159-165) -/
def indexNames (f : Folder) : List Name := sortNames ((f.map Prod.fst).filter fun n => accepts rx n)

/-- lines as written by `print` -/
def linesText (ls : List Name) : Name := (ls.map fun n => n ++ ['\n']).flatten

/-- the name of an index -/
def indexName : Name := "index.txt".toList

/-- the index of one product, if the folder exists (itsg_graz_grace_sync.py:155-167) -/
def writeIndex (v : String) (s : Store) (ds : String) : Store := fun q =>
  if q = (v, ds) then (s (v, ds)).map fun f => put f indexName ⟨w.enc (linesText (indexNames f)), w.now⟩ else s q

/-- the products of the last loop (itsg_graz_grace_sync.py:154) -/
def products : List String := ["GAA", "GAB", "GAC", "GAD", "GSM"]

/-- the remote directories of a release; `none`: the listing fails (itsg_graz_grace_sync.py:83-86, 116-117, 135-136).
The dealiasing directory is `background` for Grace2014 and `monthly_background` otherwise. -/
structure Server where
  dealias : String → Option (List Remote)
  monthly : String → ℕ → Option (List Remote)

/-- the folder of the gravity fields is made and filled, and the indices are written
(itsg_graz_grace_sync.py:139-167) -/
def fields (v : String) (rs : List Remote) (s : Store) : Store :=
  products.foldl (writeIndex w v) (rs.foldl (fetch w o (v, "GSM")) (mkdir s (v, "GSM")))

/-- `itsg_graz_grace_sync` (itsg_graz_grace_sync.py:62-171): the folders afterwards and what is raised -/
def sync (srv : Server) (release : String) (lmax : ℕ) (s : Store) : Store × Option Err :=
  match srv.dealias release with
  | none => (s, some .list)
  | some bs =>
    match background w o (drel release) (listing bs) s with
    | (s, some e) => (s, some e)
    | (s, none) =>
      match srv.monthly release lmax with
      | none => (s, some .list)
      | some ms =>
        match drel release with
        | none => (s, some .key)
        | some v => (fields w o v (listing ms) s, none)

/-- the loop of `main` over the releases (itsg_graz_grace_sync.py:270-273) -/
def main (srv : Server) (lmax : ℕ) : List String → Store → Store × Option Err
  | [], s => (s, none)
  | r :: rs, s =>
    match sync w o srv r lmax s with
    | (s, some e) => (s, some e)
    | (s, none) => main srv lmax rs s

end Verif.Graz
