import Verif.Utilities.Model

/-!
# Uploads to figshare and the table of static models (`to_figshare`, `icgem_list` of gravity_toolkit/utilities.py)

The ftp server is a set of directories and a map from paths to contents: a directory can be made below a directory there is, a file
can be stored in a directory there is, replacing what was there.  Local files are a map from names to contents; a path is taken as
absolute and does not end in a slash.  TLS, user names and passwords, permissions and the verbosity are left out, as is the HTML parser: the links of the cells
with model files are given.
-/
namespace Verif.Upload
open Verif.Utilities

/-- exceptions -/
inductive Err where
  /-- `TypeError`: the directory is `None` -/
  | type
  /-- a local file is missing -/
  | notFound
  /-- the server refuses -/
  | perm
  /-- `List error from ...` -/
  | list
  /-- `IndexError: pop from empty list` -/
  | index
  /-- `RecursionError` of `url_split` -/
  | recursion
deriving DecidableEq

/-- an ftp server -/
structure Server (β : Type) where
  dirs : Str → Bool
  files : Str → Option β

variable {β : Type}

/-- `MKD`: refused if the directory exists or the one above does not -/
def Server.mkd (s : Server β) (p : Str) : Server β :=
  if s.dirs p = false ∧ s.dirs (psplit p).1 = true then { s with dirs := fun q => if q = p then true else s.dirs q } else s

/-- `STOR` -/
def Server.stor (s : Server β) (p : Str) (b : β) : Except Err (Server β) :=
  if s.dirs (psplit p).1 then .ok { s with files := fun q => if q = p then some b else s.files q } else .error .perm

/-- the path of a file on the server (utilities.py:2253-2254): `data`, the directory and the last part of the local name -/
def remotePath (dir file : Str) : Str := joinStep (joinStep "data".toList dir) (psplit file).2

/-- the loop over the files (utilities.py:2249-2258): what is on the server at the end and the exception -/
def uploads (disk : Str → Option β) (dir : Option Str) : Server β → List Str → Server β × Option Err
  | s, [] => (s, none)
  | s, f :: fs =>
    match dir with
    | none => (s, some .type)
    | some d =>
      match disk f with
      | none => (s, some .notFound)
      | some b =>
        match s.stor (remotePath d f) b with
        | .error e => (s, some e)
        | .ok s' => uploads disk dir s' fs

/-- `to_figshare` (utilities.py:2192-2258) behind the login: the directory is made, whatever comes of it -/
def toFigshare (disk : Str → Option β) (dir : Option Str) (s : Server β) (fs : List Str) : Server β × Option Err :=
  let s := match dir with
    | none => s
    | some d => s.mkd (joinStep "data".toList d)
  uploads disk dir s fs

/-! ## Static models -/

/-- what `(.*?).gfc` makes of a text from here: the group, the rest behind the match (a dot is any character that does not end a
line) -/
def lazyGfc : Str → Option (Str × Str)
  | [] => none
  | c :: t =>
    if c = '\n' then none
    else if "gfc".toList.isPrefixOf t then some ([], t.drop 3)
    else (lazyGfc t).map fun x => (c :: x.1, x.2)

theorem lazyGfc_shorter (t : Str) : ∀ x, lazyGfc t = some x → x.2.length < t.length := by
  induction t with
  | nil => simp [lazyGfc]
  | cons c t ih =>
    intro x hx
    simp only [lazyGfc] at hx
    split at hx
    · simp at hx
    · split at hx
      · simp only [Option.some.injEq] at hx; subst hx; simp only [List.length_drop, List.length_cons]; omega
      · simp only [Option.map_eq_some_iff] at hx
        obtain ⟨y, hy, rfl⟩ := hx
        have := ih y hy
        simp only [List.length_cons]; omega

/-- `re.findall(r'(.*?).gfc', text)` -/
def findGfc (t : Str) : List Str :=
  match t with
  | [] => []
  | c :: r =>
    match h : lazyGfc (c :: r) with
    | none => findGfc r
    | some x => x.1 :: findGfc x.2
termination_by t.length
decreasing_by
  · simp
  · exact lazyGfc_shorter _ _ h

/-- `re.search(r'gfc$', f)`: at the end, or before a last line feed -/
def endsGfc (f : Str) : Bool := "gfc".toList.isSuffixOf f || "gfc\n".toList.isSuffixOf f

/-- to set a key of a dictionary: a key that is there keeps its place -/
def setKey (k : Str) (v : List Str) : List (Str × List Str) → List (Str × List Str)
  | [] => [(k, v)]
  | (a, b) :: r => if a = k then (a, v) :: r else (a, b) :: setKey k v r

/-- one entry of the dictionary (utilities.py:2610-2611) -/
def addModel (d : Except Err (List (Str × List Str))) (f : Str) : Except Err (List (Str × List Str)) :=
  match d with
  | .error e => .error e
  | .ok d =>
    match (findGfc (psplit f).2).getLast?, urlSplit f with
    | none, _ => .error .index
    | some _, none => .error .recursion
    | some k, some v => .ok (setKey k v d)

/-- `icgem_list` (utilities.py:2574-2611): `none` if the page cannot be opened or parsed -/
def icgemList (page : Option (List Str)) : Except Err (List (Str × List Str)) :=
  match page with
  | none => .error .list
  | some links => (links.filter endsGfc).foldl addModel (.ok [])

end Verif.Upload
