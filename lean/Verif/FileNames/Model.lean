/-!
# Files found without regard to case, and the dispatchers `from_file` and `to_file`

Models of
* `case_insensitive_filename` (harmonics.py:165-192; the same text in spatial.py:138-165 and geocenter.py:111-138),
* `harmonics.from_file` (harmonics.py:682-724), `spatial.from_file` (spatial.py:668-702),
* `harmonics.to_file` (harmonics.py:1104-1136), `spatial.to_file` (spatial.py:1099-1131),
* the parameter list of `harmonics.from_SHM` (harmonics.py:539).

The name of the file is given to `re.match` *as a regular expression*.  Names of letters, digits and the
characters that have no meaning in an expression are modelled exactly, with the full stop, which matches any
character but a line feed; for names with other characters (and for entries outside ASCII, where folding is a
matter of Unicode tables) the answer of `re.match` is a parameter, `none` standing for `re.error`.
-/

namespace Verif.FileNames

/-- a file name -/
abbrev Name := List Char

/-- exceptions that can be told apart -/
inductive Err
  | notFound      -- FileNotFoundError
  | regex         -- re.error
  | typeError     -- TypeError
  | reader        -- whatever the reader of the format raises
  deriving DecidableEq, Repr

/-- Lower case of ASCII letters (what `re.I` does to ASCII text); harmonics.py:186. -/
def fold (c : Char) : Char := if 'A' ≤ c ∧ c ≤ 'Z' then Char.ofNat (c.toNat + 32) else c

/-- Characters that have a meaning in an expression, apart from the full stop (Python's `re`). -/
def special (c : Char) : Bool := c ∈ ['*', '+', '?', '(', ')', '[', ']', '{', '}', '|', '^', '$', '\\']

/-- Names for which the model of `re.match` is exact: ASCII, no special characters. -/
def plain (n : Name) : Bool := n.all fun c => c.toNat < 128 && !special c

/-- ASCII text -/
def ascii (n : Name) : Bool := n.all fun c => c.toNat < 128

/-- One character of the expression against one of the text, `re.I` (harmonics.py:186). -/
def one (p c : Char) : Bool := if p = '.' then c ≠ '\n' else fold p = fold c

/-- `re.match(name, text, re.I)`: a match at the beginning of the text, the rest of the text is free
(harmonics.py:186). -/
def matchPlain : Name → Name → Bool
  | [], _ => true
  | _ :: _, [] => false
  | p :: ps, c :: cs => one p c && matchPlain ps cs

/-- `re.match(self.filename.name, f.name, re.I)` for any name (harmonics.py:186); `rx` answers for names and
entries outside the modelled class, `none` is `re.error`. -/
def reMatch (rx : Name → Name → Option Bool) (n f : Name) : Option Bool :=
  if plain n && ascii f then some (matchPlain n f) else rx n f

/-- The list comprehension over `parent.iterdir()` (harmonics.py:185-186). -/
def matching (rx : Name → Name → Option Bool) (n : Name) : List Name → Except Err (List Name)
  | [] => .ok []
  | f :: fs => do
    match reMatch rx n f with
    | none => .error .regex
    | some b =>
      let r ← matching rx n fs
      .ok (if b then f :: r else r)

/-- Directory of the file: `none` if it does not exist, else its entries in the order of `iterdir` with their
contents. -/
abbrev Dir (C : Type) := Option (List (Name × C))

/-- names of the entries -/
def entries {C : Type} (d : List (Name × C)) : List Name := d.map (·.1)

/-- `case_insensitive_filename` for a path (harmonics.py:178-190): the entry itself if it exists, otherwise
the last of the matching entries (`f.pop()`).  `iterdir` of a missing directory is a FileNotFoundError. -/
def search {C : Type} (rx : Name → Name → Option Bool) (d : Dir C) (n : Name) : Except Err Name :=
  match d with
  | none => .error .notFound
  | some es =>
    if n ∈ entries es then .ok n
    else do
      let f ← matching rx n (entries es)
      match f.getLast? with
      | none => .error .notFound
      | some g => .ok g

/-- The argument `filename` (harmonics.py:174-178): an open file object, None or an empty string, or a path. -/
inductive Arg (C : Type)
  | object (c : C)
  | nothing
  | path (n : Name)

/-- What `self.filename` becomes: the file object, None, or a name in the directory
(harmonics.py:173-192). -/
def filename {C : Type} (rx : Name → Name → Option Bool) (d : Dir C) : Arg C → Except Err (Arg C)
  | .object c => .ok (.object c)
  | .nothing => .ok .nothing
  | .path n => (search rx d n).map .path

/-- contents of an entry -/
def contents {C : Type} (d : Dir C) (n : Name) : Option C :=
  match d with
  | none => none
  | some es => (es.find? fun e => e.1 = n).map (·.2)

/-- A reader such as `from_ascii(filename)` (first line of each reader, e.g. harmonics.py:237): it looks for
the file itself and then decodes the contents; `dec` returns `none` for contents it cannot read.  With None as
file name every reader fails (`None.open`, `netCDF4.Dataset(None)`, `h5py.File(None)`). -/
def reader {C O : Type} (rx : Name → Name → Option Bool) (d : Dir C) (dec : C → Option O) (a : Arg C) :
    Except Err O := do
  let b ← filename rx d a
  let c? : Option C := match b with
    | .object c => some c
    | .nothing => none
    | .path n => contents d n
  match c? with
  | none => .error .reader
  | some c =>
    match dec c with
    | none => .error .reader
    | some o => .ok o

/-- `harmonics.from_file` (harmonics.py:704-724): first a search, then the reader of the format, with the
*original* argument.  `from_SHM(filename, self.lmax)` has one positional argument too many for
`from_SHM(self, filename, **kwargs)`; other formats fall through and return None. -/
def harmonicsFromFile {C O : Type} (rx : Name → Name → Option Bool) (dec : List Char → C → Option O)
    (d : Dir C) (a : Arg C) (format : Option (List Char)) : Except Err (Option O) := do
  let _ ← filename rx d a
  if format = some "ascii".toList then (reader rx d (dec "ascii".toList) a).map some
  else if format = some "netCDF4".toList then (reader rx d (dec "netCDF4".toList) a).map some
  else if format = some "HDF5".toList then (reader rx d (dec "HDF5".toList) a).map some
  else if format = some "gfc".toList then (reader rx d (dec "gfc".toList) a).map some
  else if format = some "SHM".toList then .error .typeError
  else .ok none

/-- `spatial.from_file` (spatial.py:690-702). -/
def spatialFromFile {C O : Type} (rx : Name → Name → Option Bool) (dec : List Char → C → Option O)
    (d : Dir C) (a : Arg C) (format : Option (List Char)) : Except Err (Option O) := do
  let _ ← filename rx d a
  if format = some "ascii".toList then (reader rx d (dec "ascii".toList) a).map some
  else if format = some "netCDF4".toList then (reader rx d (dec "netCDF4".toList) a).map some
  else if format = some "HDF5".toList then (reader rx d (dec "HDF5".toList) a).map some
  else .ok none

/-- Writing a file: the contents of an existing entry are replaced, a new entry comes at place `k` of the
listing (the operating system decides). -/
def put {C : Type} (k : Nat) (d : List (Name × C)) (n : Name) (c : C) : List (Name × C) :=
  if n ∈ entries d then d.map fun e => if e.1 = n then (n, c) else e
  else d.take k ++ (n, c) :: d.drop k

/-- `to_file` (harmonics.py:1125-1136, spatial.py:1120-1131): the writer of the format with exactly the name
given; unknown formats write nothing and do not fail.  A missing directory is a FileNotFoundError of the
writer. -/
def toFile {C O : Type} (enc : List Char → O → C) (k : Nat) (d : Dir C) (n : Name)
    (format : Option (List Char)) (o : O) : Except Err (Dir C) :=
  let w (t : List Char) : Except Err (Dir C) :=
    match d with
    | none => .error .notFound
    | some es => .ok (some (put k es n (enc t o)))
  if format = some "ascii".toList then w "ascii".toList
  else if format = some "netCDF4".toList then w "netCDF4".toList
  else if format = some "HDF5".toList then w "HDF5".toList
  else .ok d

end Verif.FileNames
