import Verif.Utilities.Model
import Verif.GeoRead.Model
import Verif.GeoRead.Text
import Verif.Names.Regex
import Mathlib.Data.List.Lex
import Mathlib.Data.Char

/-!
# Model of the downloads of auxiliary files and of the ftp functions of `utilities.py`

`from_csr`, `from_gfz`, `from_gsfc`, `from_http`, `from_ftp`, `ftp_list`, `check_ftp_connection` and `get_unix_time`.  A disk maps
paths to contents and modification time.  What the servers answer to the requests, numbered in the order in which they are made, is an
argument, as are the clock and the hash function.  Paths are joined as by `posixpath.join`; directories, permissions, SSL contexts,
time limits and log messages are not modelled.
-/
namespace Verif.Fetch
open Verif.Utilities Verif.SLR Verif.GeoRead

/-! ## Time stamps -/

/-- the alternatives of an expression of `strptime` for a number of two digits between `lo` and `hi`, or else of one digit from `lo`,
in the order in which they are tried: value and rest (ASCII digits only; the alternative with a blank for `%d` is left out) -/
def alts (lo hi : ℕ) (cs : List Char) : List (ℕ × List Char) :=
  (match cs with
    | a :: b :: r =>
      if a.isDigit ∧ b.isDigit ∧ lo ≤ digitsVal [a, b] ∧ digitsVal [a, b] ≤ hi then [(digitsVal [a, b], r)] else []
    | _ => []) ++
  (match cs with
    | a :: r => if a.isDigit ∧ lo ≤ digit a then [(digit a, r)] else []
    | _ => [])

/-- a date and a time of day -/
structure Stamp where
  y : ℕ
  mo : ℕ
  d : ℕ
  h : ℕ
  mi : ℕ
  s : ℕ
deriving DecidableEq

/-- all ways to match `%m%d%H%M%S`, in the order of the search -/
def stampRuns (y : ℕ) (r : List Char) : List (Stamp × List Char) :=
  (alts 1 12 r).flatMap fun mo => (alts 1 31 mo.2).flatMap fun d => (alts 0 23 d.2).flatMap fun h =>
    (alts 0 59 h.2).flatMap fun mi => (alts 0 61 mi.2).map fun s => (⟨y, mo.1, d.1, h.1, mi.1, s.1⟩, s.2)

/-- `time.strptime(text, '%Y%m%d%H%M%S')`: the first match has to use up the text and to be a date -/
def strptime (cs : List Char) : Option Stamp := do
  let (y, r) ← year4 cs
  let (t, r) ← (stampRuns y r).head?
  if r = [] ∧ 1 ≤ t.y ∧ t.d ≤ monthDays t.y t.mo then some t else none

/-- `datetime.date(y, m, d).toordinal()` (Python's datetime.py): days of the years before, of the months before, and the day -/
def ordinal (y m d : ℕ) : ℕ :=
  365 * (y - 1) + (y - 1) / 4 - (y - 1) / 100 + (y - 1) / 400 + ((List.range (m - 1)).map fun k : ℕ => monthDays y (k + 1)).sum + d

/-- `calendar.timegm` (Python's calendar.py) -/
def timegm (t : Stamp) : ℤ :=
  ((((ordinal t.y t.mo 1 : ℤ) - ordinal 1970 1 1 + t.d - 1) * 24 + t.h) * 60 + t.mi) * 60 + t.s

/-- `str.rstrip()` (white space of ASCII) -/
def rstrip (cs : List Char) : List Char := (cs.reverse.dropWhile Utilities.isSpace).reverse

/-- `get_unix_time(text, format="%Y%m%d%H%M%S")` (utilities.py:283-309).  `other`: what `dateutil.parser` makes of the text, as a
time stamp (of local time if the text has no time zone), none if it cannot read it -/
def unixTime (other : Str → Option ℚ) (text : Str) : Option ℚ :=
  match strptime (rstrip text) with
  | some t => some (timegm t : ℤ)
  | none => other (rstrip text)

/-! ## Listing of ftp servers -/

/-- what an ftp server answers to `MDTM` -/
inductive Mdtm where
  /-- the reply, e.g. `213 20200101120000` -/
  | reply (r : Str)
  /-- `ftplib.error_perm`, the answer for directories -/
  | perm
  /-- any other exception -/
  | raises

/-- exceptions -/
inductive Err where
  /-- `RuntimeError`: the server cannot be reached -/
  | connect
  /-- an exception of `ftplib` (login refused, missing file) -/
  | ftp
  | type | value | index
  /-- `Exception('Download error from ...')` -/
  | download
  /-- `Exception('List error from ...')` -/
  | list
  /-- the process ends in the middle of writing -/
  | killed
deriving DecidableEq

/-- an ftp server for a listing: can it be reached, does it accept the login, the names `nlst` gives for a path (none: exception),
and the answers to `MDTM` -/
structure FtpServer where
  reach : Bool
  login : Bool
  nlst : Str → Option (List Str)
  mdtm : Str → Mdtm

/-- the times of the items (utilities.py:494-507): directories get `None` -/
def mtimes (other : Str → Option ℚ) (mdtm : Str → Mdtm) : List Str → Option (List (Option ℚ))
  | [] => some []
  | f :: r =>
    match mdtm f with
    | .raises => none
    | .perm => (mtimes other mdtm r).map fun t => none :: t
    | .reply s => (mtimes other mdtm r).map fun t => unixTime other (s.drop 4) :: t

/-- `posixpath.basename` -/
def basename (p : Str) : Str := (psplit p).2

/-- `ftp_list` (utilities.py:441-520) for a host given as a list.  `pat`: does the pattern match somewhere in a name (none: no
pattern) -/
def ftpList (other : Str → Option ℚ) (srv : FtpServer) (host : List Str) (base : Bool) (pat : Option (Str → Bool)) (sort : Bool) :
    Except Err (List Str × List (Option ℚ)) :=
  match host with
  | [] => .error .index
  | _ :: path =>
    if ¬ srv.reach then .error .connect
    else if ¬ srv.login then .error .ftp
    else match join path with
      | none => .error .type
      | some p =>
        match srv.nlst p with
        | none => .error .ftp
        | some names =>
          match mtimes other srv.mdtm names with
          | none => .error .ftp
          | some ts =>
            match listing pat sort (if base then names.map basename else names) ts with
            | none => .error .index
            | some r => .ok r

/-- what happens at the three calls of `check_ftp_connection` -/
inductive Ftp where
  | fine | os | perm | other
deriving DecidableEq

/-- what `check_ftp_connection` does -/
inductive Checked where
  | true_
  /-- `RuntimeError('Check internet connection')` -/
  | internet
  /-- `RuntimeError('Check login credentials')` -/
  | credentials
  /-- the exception itself -/
  | raised
deriving DecidableEq

/-- `check_ftp_connection` (utilities.py:411-438): connection, login and `NOOP`, one after the other -/
def checkFtp : List Ftp → Checked
  | [] => .true_
  | .fine :: r => checkFtp r
  | .os :: _ => .internet
  | .perm :: _ => .credentials
  | .other :: _ => .raised

/-! ## Downloads -/

/-- a local file: contents and modification time -/
structure LFile where
  data : Bytes
  mtime : ℚ
deriving DecidableEq

/-- local files by path -/
abbrev Disk := Path → Option LFile

/-- `get_hash(local)` (utilities.py:172-207) -/
def hashOf (H : Bytes → Str) (d : Disk) (p : Path) : Str :=
  match d p with
  | none => []
  | some f => H f.data

/-- the answer of a web server to a request -/
inductive Reply where
  /-- any exception -/
  | fails
  | gives (b : Bytes)
  /-- the contents arrive and the process ends when `n` bytes of the local file have been written -/
  | killed (b : Bytes) (n : ℕ)

/-- `from_http(url, local=p, hash=get_hash(p))` (utilities.py:740-819) -/
def fromHttp (H : Bytes → Str) (now : ℚ) (d : Disk) (p : Path) : Reply → Disk × Except Err Bytes
  | .fails => (d, .error .download)
  | .gives b => (if hashOf H d p ≠ H b then Function.update d p (some ⟨b, now⟩) else d, .ok b)
  | .killed b n => (if hashOf H d p ≠ H b then Function.update d p (some ⟨b.take n, now⟩) else d, .error .killed)

/-- the answer of an ftp server to a download -/
inductive FtpReply where
  /-- no connection -/
  | refused
  /-- exceptions of login, `RETR` or `MDTM`: `MDTM` is sent after the file has been received and before anything is written -/
  | fails
  /-- contents and reply to `MDTM` -/
  | file (b : Bytes) (mdtm : Str)
  /-- the process ends when `n` bytes have been written -/
  | killed (b : Bytes) (n : ℕ)

/-- `from_ftp(host, local=p, hash=get_hash(p))` (utilities.py:523-614): without a time, `os.utime` raises when the file has been
written -/
def fromFtp (H : Bytes → Str) (other : Str → Option ℚ) (now : ℚ) (d : Disk) (p : Path) : FtpReply → Disk × Except Err Bytes
  | .refused => (d, .error .connect)
  | .fails => (d, .error .ftp)
  | .file b m =>
    if hashOf H d p ≠ H b then
      match unixTime other (m.drop 4) with
      | some t => (Function.update d p (some ⟨b, t⟩), .ok b)
      | none => (Function.update d p (some ⟨b, now⟩), .error .type)
    else (d, .ok b)
  | .killed b n => (if hashOf H d p ≠ H b then Function.update d p (some ⟨b.take n, now⟩) else d, .error .killed)

/-- the state of a program that downloads: number of requests made, and the disk -/
abbrev State := ℕ × Disk

/-- a part of such a program, and the exception it ends with -/
abbrev Prog := State → State × Option Err

/-- one part after the other -/
def andThen (a b : Prog) : Prog := fun s =>
  match a s with
  | (s, none) => b s
  | (s, some e) => (s, some e)

/-- nothing -/
def skip : Prog := fun s => (s, none)

/-- a loop -/
def each {A : Type} (f : A → Prog) : List A → Prog
  | [] => skip
  | a :: r => andThen (f a) (each f r)

/-- the world outside of the program: hash function, clock, web server (number of the request and url), directories of the web server
(names and times, none for an exception), ftp server (number of the request and path), `dateutil` -/
structure World where
  H : Bytes → Str
  clock : ℕ → ℚ
  web : ℕ → Str → Reply
  dir : ℕ → Str → Option (List Str × List (Option ℚ))
  ftp : ℕ → Str → FtpReply
  other : Str → Option ℚ

variable (w : World)

/-- `posixpath.join(*parts)` of a list that is not empty -/
def path (parts : List Str) : Str := (join parts).getD []

/-- one file from a web server: url and local path -/
def httpFile (url : List Str) (p : Path) : Prog := fun s =>
  match fromHttp w.H (w.clock s.1) s.2 p (w.web s.1 (path url)) with
  | (d, .ok _) => ((s.1 + 1, d), none)
  | (d, .error e) => ((s.1 + 1, d), some e)

/-- one file from an ftp server -/
def ftpFile (host : List Str) (p : Path) : Prog := fun s =>
  match fromFtp w.H w.other (w.clock s.1) s.2 p (w.ftp s.1 (path host)) with
  | (d, .ok _) => ((s.1 + 1, d), none)
  | (d, .error e) => ((s.1 + 1, d), some e)

/-! ## Center for Space Research -/

/-- `HOST` (utilities.py:2304) -/
def csrHost : Str := "http://download.csr.utexas.edu".toList

/-- the SLR files (utilities.py:2314-2320) -/
def slrFiles : List (List Str) :=
  [["pub", "slr", "degree_5", "CSR_Monthly_5x5_Gravity_Harmonics.txt"], ["pub", "slr", "degree_2", "C20_RL06.txt"],
    ["pub", "slr", "degree_2", "C21_S21_RL06.txt"], ["pub", "slr", "degree_2", "C22_S22_RL06.txt"],
    ["pub", "slr", "TN11E", "TN11E.txt"]].map fun l => csrHost :: l.map String.toList

/-- the geocenter files (utilities.py:2340-2342) -/
def geoFiles : List (List Str) :=
  [["pub", "slr", "geocenter", "GCN_L1_L2_30d_CF-CM.txt"], ["outgoing", "cheng", "gct2est.220_5s"]].map fun l =>
    csrHost :: l.map String.toList

/-- `re.search(r'\d{4}', name)` -/
def hasYear (name : Str) : Bool := name.tails.any fun t => decide (4 ≤ t.length) && (t.take 4).all Char.isDigit

/-- `re.search(PROD, name)` -/
def hasText (text name : Str) : Bool := name.tails.any fun t => text.isPrefixOf t

/-- `http_list(url, pattern)` (utilities.py:671-737) -/
def httpList (pat : Str → Bool) (url : List Str) (s : State) : State × Except Err (List Str) :=
  match w.dir s.1 (path url) with
  | none => ((s.1 + 1, s.2), .error .list)
  | some (names, times) =>
    match reduceBy (some pat) names times with
    | none => ((s.1 + 1, s.2), .error .index)
    | some (fs, _) => ((s.1 + 1, s.2), .ok fs)

/-- the remote directory (utilities.py:2358-2359) -/
def lriHost (version : Str) : List Str := [csrHost, "outgoing".toList, "gracefo".toList, version]

/-- the files of a product in the directory of a year (utilities.py:2370-2385) -/
def lriYear (dir version prod year : Str) : Prog := fun s =>
  match httpList w (hasText prod) (lriHost version ++ [year]) s with
  | (s, .error e) => (s, some e)
  | (s, .ok fs) => each (fun f => httpFile w (lriHost version ++ [year, f]) (path [dir, "CSR".toList, version, prod, f])) fs s

/-- the solutions of the laser ranging interferometer (utilities.py:2357-2385) -/
def lri (dir version : Str) : Prog := fun s =>
  match httpList w hasYear (lriHost version) s with
  | (s, .error e) => (s, some e)
  | (s, .ok years) => each (fun prod => each (lriYear w dir version prod) years) (["GAC", "GAD", "GSM"].map String.toList) s

/-- the argument `variable` -/
inductive Variable where
  | none
  | str (s : String)
  /-- a list or tuple -/
  | list (l : List String)

/-- a part that is run under a condition -/
def when_ (b : Bool) (p : Prog) : Prog := if b then p else skip

/-- the chosen groups of files (utilities.py:2311-2385) -/
def csrParts (dir version : Str) (vs : List String) : Prog :=
  andThen (when_ (vs.contains "SLR") (each (fun f => httpFile w f (path [dir, f.getLastD []])) slrFiles))
    (andThen (when_ (vs.contains "geocenter") (each (fun f => httpFile w f (path [dir, "geocenter".toList, f.getLastD []])) geoFiles))
      (when_ (vs.contains "LRI") (lri w dir version)))

/-- `from_csr` (utilities.py:2263-2385): `'SLR' in None` is a `TypeError` -/
def fromCsr (dir version : Str) : Variable → Prog
  | .none => fun s => (s, some .type)
  | .str v => csrParts w dir version [v]
  | .list vs => csrParts w dir version vs

/-! ## GeoForschungsZentrum -/

/-- the ftp server -/
def gfzHost : Str := "isdcftp.gfz-potsdam.de".toList

/-- the files (utilities.py:2420-2424, 2438-2440) and where they go -/
def gfzFiles : List (List Str × List Str) :=
  [(["grace", "Level-2", "GFZ", "RL06_SLR_C20", "GFZ_RL06_C20_SLR.dat"], ["GFZ_RL06_C20_SLR.dat"]),
    (["grace", "GravIS", "GFZ", "Level-2B", "aux_data", "GRAVIS-2B_GFZOP_GRACE+SLR_LOW_DEGREES_0003.dat"],
      ["GRAVIS-2B_GFZOP_GRACE+SLR_LOW_DEGREES_0003.dat"]),
    (["grace", "GravIS", "GFZ", "Level-2B", "aux_data", "GRAVIS-2B_GFZOP_GEOCENTER_0003.dat"],
      ["geocenter", "GRAVIS-2B_GFZOP_GEOCENTER_0003.dat"])].map fun p => (gfzHost :: p.1.map String.toList, p.2.map String.toList)

/-- `from_gfz` (utilities.py:2388-2448) -/
def fromGfz (dir : Str) : Prog := each (fun f => ftpFile w f.1 (path (dir :: f.2))) gfzFiles

/-! ## Goddard Space Flight Center -/

open Verif.Names in
/-- `r'\d+[\s+]\w{3}[\s+]\d{4}'` (utilities.py:2563), the whole match as a group (ASCII only) -/
def dayRe : Re :=
  let sep : Re := .chr fun c => Utilities.isSpace c || c == '+'
  let word : Re := .chr fun c => c.isAlphanum || c == '_'
  .grp 0 (cat [digits, sep, times 3 word, sep, times 4 digit])

/-- the names of the months, small letters -/
def monthNames : List Str :=
  ["jan", "feb", "mar", "apr", "may", "jun", "jul", "aug", "sep", "oct", "nov", "dec"].map String.toList

/-- `time.strptime(text, '%d %b %Y')` for a text matched by the expression above: one or two digits, white space, the name of a month
without regard to case, white space and four digits, forming a date; year and month -/
def dayMonthYear (t : Str) : Option (ℕ × ℕ) := do
  let ds := t.takeWhile Char.isDigit
  let r := t.dropWhile Char.isDigit
  let day := digitsVal ds
  match r with
  | s1 :: a :: b :: c :: s2 :: ys =>
    let y := digitsVal ys
    let k := monthNames.findIdx (· == [a.toLower, b.toLower, c.toLower])
    if (ds.length = 1 ∨ ds.length = 2) ∧ Utilities.isSpace s1 ∧ Utilities.isSpace s2 ∧ k < 12 ∧ ys.length = 4 ∧ ys.all Char.isDigit ∧
      1 ≤ y ∧ 1 ≤ day ∧ day ≤ monthDays y (k + 1) then some (y, k + 1) else none
  | _ => none

/-- `time.strftime('%Y%m', ...)`: for years from 1000 -/
def yearMonth (p : ℕ × ℕ) : Str := pad4 p.1 ++ pad2 p.2

open Verif.Names in
/-- the name of the dated copy (utilities.py:2559-2567): none if there is not exactly one line with the span, if it does not have
exactly two dates or if they are no dates (`ValueError`) -/
def copyName (lines : List Str) : Option Str :=
  match lines.filter fun l => "Data span:".toList.isPrefixOf l with
  | [l] =>
    match (findall dayRe l).map fun c => group c 0 with
    | [a, b] =>
      match dayMonthYear a, dayMonthYear b with
      | some p, some q => some ("GSFC_SLR_5x5c61s61_".toList ++ yearMonth p ++ "_".toList ++ yearMonth q ++ ".txt".toList)
      | _, _ => none
    | _ => none
  | _ => none

/-- the file (utilities.py:2545) -/
def gsfcName : Str := "gsfc_slr_5x5c61s61.txt".toList

/-- `from_gsfc` (utilities.py:2504-2571).  `textOf`: the lines of the contents; the url is split and joined again,
which changes nothing (Verif.Utilities.join_urlSplit); `shutil.copyfile` and `copystat` copy contents and
modification time -/
def fromGsfc (textOf : Bytes → List Str) (dir host : Str) (copy : Bool) : Prog := fun s =>
  match fromHttp w.H (w.clock s.1) s.2 (path [dir, gsfcName]) (w.web s.1 (path [host, gsfcName])) with
  | (d, .error e) => ((s.1 + 1, d), some e)
  | (d, .ok b) =>
    if copy then
      match copyName (textOf b) with
      | none => ((s.1 + 1, d), some .value)
      | some n => ((s.1 + 1, Function.update d (path [dir, n]) (d (path [dir, gsfcName]))), none)
    else ((s.1 + 1, d), none)

end Verif.Fetch
