import Mathlib.Algebra.Order.Floor.Ring
import Mathlib.Data.List.Sort
import Mathlib.Data.Rat.Floor

/-!
# Model of `utilities.py`

Strings and paths are lists of characters, file systems are maps from paths to contents.  Not modelled: the
network, credentials, permissions, the regular expressions and the html/json parsers — what they return is an
argument of the functions below.
-/
namespace Verif.Utilities

abbrev Str := List Char

/-! ## paths and urls -/

/-- `s.rstrip('/')` -/
def rstripSlash (s : Str) : Str := (s.reverse.dropWhile (· = '/')).reverse

/-- `posixpath.split(s)` (Python's posixpath.py): the part after the last slash, and the part before with its
trailing slashes removed unless it is all slashes -/
def psplit (s : Str) : Str × Str :=
  let tail := (s.reverse.takeWhile (· ≠ '/')).reverse
  let head := (s.reverse.dropWhile (· ≠ '/')).reverse
  (if head.all (· = '/') then head else rstripSlash head, tail)

/-- the schemes `url_split` knows (utilities.py:260) -/
def schemes : List Str := ["http:".toList, "https:".toList, "ftp:".toList, "s3:".toList]

/-- `url_split(s)` (utilities.py:250-264): `none` is the `RecursionError` of a call that calls itself with the
same argument (`head` is never longer than `s`, and of the same length only if it is `s`, see
`psplit_same`) -/
def urlSplit (s : Str) : Option (List Str) :=
  if (psplit s).1 ∈ schemes then some [s]
  else if (psplit s).1 = [] ∨ (psplit s).1 = ['/'] then some [(psplit s).2]
  else if _h : (psplit s).1.length < s.length then
    (urlSplit (psplit s).1).map (· ++ [(psplit s).2])
  else none
termination_by s.length

/-- one component of `posixpath.join` (Python's posixpath.py) -/
def joinStep (path b : Str) : Str :=
  if b.head? = some '/' then b
  else if path = [] ∨ path.getLast? = some '/' then path ++ b
  else path ++ '/' :: b

/-- `posixpath.join(*parts)`; without arguments a `TypeError` -/
def join : List Str → Option Str
  | [] => none
  | a :: t => some (t.foldl joinStep a)

/-- `re.sub(pat, '', s, n)` for a literal pattern: at most `n` replacements, left to right -/
def subN (pat : Str) : ℕ → Str → Str
  | _, [] => []
  | 0, s => s
  | n + 1, c :: t =>
    if pat.isPrefixOf (c :: t) ∧ pat ≠ [] then subN pat n ((c :: t).drop pat.length) else c :: subN pat (n + 1) t
termination_by _ s => s.length
decreasing_by
  · rename_i h
    have : 0 < pat.length := List.length_pos_of_ne_nil h.2
    simp only [List.length_drop, List.length_cons]; omega
  · simp

/-- `s3_bucket` (utilities.py:1280-1296): the fourth argument of `re.sub` is the number of replacements, and
`re.IGNORECASE` is 2 -/
def s3Bucket (url : Str) : Option Str := (urlSplit url).bind fun h => h.head?.map (subN "s3://".toList 2)

/-- `s3_key` (utilities.py:1299-1315) -/
def s3Key (url : Str) : Option Str := (urlSplit url).bind fun h => join h.tail

/-! ## numbers -/

section
variable {K : Type} [Field K] [LinearOrder K] [FloorRing K]

/-- `even(value)` (utilities.py:330-339): `2*int(value//2)` -/
def even (v : K) : ℤ := 2 * ⌊v / 2⌋

/-- `ceil(value)` (utilities.py:342-351): `-int(-value//1)` -/
def ceil (v : K) : ℤ := -⌊-v / 1⌋
end

/-! ## arguments from files -/

/-- whitespace of `str.split()` (the ASCII part) -/
def isSpace (c : Char) : Bool := c = ' ' || c = '\t' || c = '\n' || c = '\r' || c = '\x0b' || c = '\x0c'

/-- `s.split()` -/
def splitWs : Str → List Str
  | [] => []
  | c :: t =>
    if isSpace c then splitWs t
    else if (t.head?.map isSpace).getD true then [c] :: splitWs t
    else
      match splitWs t with
      | [] => [[c]]
      | w :: ws => (c :: w) :: ws

/-- `convert_arg_line_to_args(arg_line)` (utilities.py:267-280) for a line without a line break: the text
before the first `#`, split at white space -/
def argsOfLine (line : Str) : List Str := splitWs (line.takeWhile (· ≠ '#'))

/-! ## files -/

abbrev Path := Str
abbrev Bytes := List UInt8
/-- contents of the files that exist -/
abbrev FS := Path → Option Bytes

/-- `pathlib`'s stem and suffix of a name: the suffix begins at the last dot, if it is neither the first nor
the last character -/
def stemSuffix (name : Str) : Str × Str :=
  let ext := (name.reverse.takeWhile (· ≠ '.')).reverse
  let before := (name.reverse.dropWhile (· ≠ '.')).reverse
  if 2 ≤ before.length ∧ ext ≠ [] then (before.dropLast, '.' :: ext) else (name, [])

/-- the name tried after `k` failures (utilities.py:383-408): the requested one, then `stem_1.ext`,
`stem_2.ext`, ... -/
def uniqueName (name : Str) (k : ℕ) : Str :=
  if k = 0 then name
  else (stemSuffix name).1 ++ '_' :: Nat.toDigits 10 k ++ (stemSuffix name).2

/-- `create_unique_file` run alone (utilities.py:393-408) for at most `fuel` attempts from the `k`-th name:
`canOpen n` is true if exclusive creation of name `n` succeeds, and every `OSError` (existing file, missing
directory, no permission) means the next name.  The index of the name created. -/
def uniqueLoop (canOpen : Str → Bool) (name : Str) : ℕ → ℕ → Option ℕ
  | 0, _ => none
  | fuel + 1, k => if canOpen (uniqueName name k) then some k else uniqueLoop canOpen name fuel (k + 1)

/-- what a caller of `create_unique_file` is doing -/
inductive Caller where
  | trying (k : ℕ)
  | done (name : Str)
  deriving DecidableEq

/-- state of a directory used by several processes at once -/
structure World (ι : Type) where
  files : FS
  caller : ι → Caller

/-- one step: a process attempts the exclusive creation of its current name, which the operating system makes
atomic (`open(mode='xb')`, utilities.py:400), or some process creates or changes files (deletions excluded) -/
inductive Step {ι : Type} [DecidableEq ι] (req : ι → Str) : World ι → World ι → Prop
  | create (w : World ι) (i : ι) (k : ℕ) (hi : w.caller i = .trying k) (hf : w.files (uniqueName (req i) k) = none) :
      Step req w ⟨Function.update w.files (uniqueName (req i) k) (some []),
        Function.update w.caller i (.done (uniqueName (req i) k))⟩
  | next (w : World ι) (i : ι) (k : ℕ) (hi : w.caller i = .trying k)
      (hf : w.files (uniqueName (req i) k) ≠ none) :
      Step req w ⟨w.files, Function.update w.caller i (.trying (k + 1))⟩
  | env (w : World ι) (f : FS) (h : ∀ p, w.files p ≠ none → f p ≠ none) : Step req w ⟨f, w.caller⟩

/-- any interleaving of any number of steps -/
inductive Reach {ι : Type} [DecidableEq ι] (req : ι → Str) (w0 : World ι) : World ι → Prop
  | refl : Reach req w0 w0
  | tail {w w'} (h : Reach req w0 w) (s : Step req w w') : Reach req w0 w'

/-- `get_hash(local)` of a path (utilities.py:172-207); `H` is the hash function -/
def getHash (H : Bytes → String) (fs : FS) (p : Path) : String :=
  match fs p with
  | none => ""
  | some b => H b

/-- contents of the file after `j` chunks have been written by `shutil.copyfileobj` to a file opened with
`mode='wb'` (utilities.py:809-812) -/
def written (chunk : ℕ) (remote : Bytes) (j : ℕ) : Bytes := remote.take (j * chunk)

/-- number of chunks of a transfer -/
def chunks (chunk : ℕ) (remote : Bytes) : ℕ := (remote.length + chunk - 1) / chunk

/-- `from_http` (also `from_ftp`, `from_drive`) interrupted after `j` chunks of the local write
(utilities.py:790-819) -/
def downloadCrash (H : Bytes → String) (chunk : ℕ) (remote : Bytes) (loc : Option Path) (hash : String) (j : ℕ)
    (fs : FS) : FS :=
  match loc with
  | none => fs
  | some p => if hash ≠ H remote then Function.update fs p (some (written chunk remote j)) else fs

/-- `from_http` (utilities.py:740-819): the buffer returned and the files afterwards -/
def download (H : Bytes → String) (chunk : ℕ) (remote : Bytes) (loc : Option Path) (hash : String) (fs : FS) :
    Bytes × FS :=
  (remote, downloadCrash H chunk remote loc hash (chunks chunk remote) fs)

/-- `copy(source, destination, move)` (utilities.py:354-380): `none` for a missing source or the same file -/
def copyFile (src dst : Path) (move : Bool) (fs : FS) : Option FS :=
  match fs src with
  | none => none
  | some b =>
    if src = dst then none
    else
      let fs' := Function.update fs dst (some b)
      some (if move then Function.update fs' src none else fs')

/-! ## listings -/

/-- `[l[i] for i in idx]`: `none` for `IndexError` -/
def pick {A : Type} (idx : List ℕ) (l : List A) : Option (List A) := idx.mapM (l[·]?)

/-- both lists at the same positions -/
def pick2 {A B : Type} (idx : List ℕ) (a : List A) (b : List B) : Option (List A × List B) :=
  match pick idx a, pick idx b with
  | some a, some b => some (a, b)
  | _, _ => none

/-- reduction by pattern in `http_list` (also `ftp_list`, `drive_list`; utilities.py:724-729); `none` without
pattern -/
def reduceBy {N T : Type} (pat : Option (N → Bool)) (names : List N) (mtimes : List T) : Option (List N × List T) :=
  match pat with
  | none => some (names, mtimes)
  | some p => pick2 ((List.range names.length).filter fun i => (names[i]?.map p).getD false) names mtimes

/-- sorting by name in `http_list` (utilities.py:730-735); Python's sort is stable -/
def sortBy {N T : Type} [LinearOrder N] (sort : Bool) (names : List N) (mtimes : List T) :
    Option (List N × List T) :=
  if sort then
    pick2 ((List.insertionSort (fun a b => a.2 ≤ b.2) ((List.range names.length).zip names)).map Prod.fst) names mtimes
  else some (names, mtimes)

/-- what `http_list` does with the names and times of a directory (utilities.py:724-737) -/
def listing {N T : Type} [LinearOrder N] (pat : Option (N → Bool)) (sort : Bool) (names : List N) (mtimes : List T) :
    Option (List N × List T) :=
  (reduceBy pat names mtimes).bind fun r => sortBy sort r.1 r.2

/-! ## queries of the Common Metadata Repository -/

structure Link where
  rel : String
  href : String
  deriving DecidableEq

structure Entry where
  title : String
  updated : String
  links : List Link
  deriving DecidableEq

/-- one response: the search-after header and the entries (`none` if the json has no feed or entry) -/
structure Page where
  header : Option String
  entries : Option (List Entry)

/-- the descriptor of the endpoint (utilities.py:1717-1720); other endpoints raise `KeyError` at the first
link -/
def relOf (endpoint : String) : Option String :=
  if endpoint = "data" then some "http://esipfed.org/ns/fedsearch/1.1/data#"
  else if endpoint = "s3" then some "http://esipfed.org/ns/fedsearch/1.1/s3#"
  else none

/-- `cmr_filter_json` (utilities.py:1709-1731) for a known endpoint descriptor: names, urls and modification
times; `none` for the pair returned without a feed, which `cmr` cannot unpack -/
def filterJson {T : Type} (time : String → T) (rel : String) (p : Page) :
    Option (List String × List String × List T) :=
  p.entries.map fun es =>
    (es.map Entry.title,
      es.filterMap fun e => (e.links.find? fun l => l.rel = rel).map Link.href,
      es.map fun e => time e.updated)

/-- the query loop of `cmr` (utilities.py:1885-1910): `pages n` is the `n`-th response; at most `fuel`
responses are read.  `none`: still running; `some none`: an exception; `some (some r)`: returned. -/
def cmrLoop {T : Type} (time : String → T) (rel : String) (pages : ℕ → Page) :
    ℕ → ℕ → List String × List String × List T → Option (Option (List String × List String × List T))
  | 0, _, _ => none
  | fuel + 1, n, acc =>
    match filterJson time rel (pages n) with
    | none => some none
    | some (ids, urls, mtimes) =>
      if urls = [] ∨ (pages n).header = none then some (some acc)
      else cmrLoop time rel pages fuel (n + 1) (acc.1 ++ ids, acc.2.1 ++ urls, acc.2.2 ++ mtimes)

end Verif.Utilities
