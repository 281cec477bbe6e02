import Verif.Fetch.Model

/-!
# Model of the access to JPL PO.DAAC Drive and of the collection metadata

`check_credentials`, `drive_list`, `from_drive`, `gsfc_list` and `cmr_metadata_json` of `utilities.py`.  The opener that is installed
for the whole process (`urllib2.install_opener`) is part of the state.  What the server answers to a request with given credentials is
an argument, as are the hash function, the clock and `dateutil`.  The HTML of a listing is given by the texts of its name cells, of its
third columns and of its links.
-/
namespace Verif.Drive
open Verif.Utilities Verif.Fetch

/-- user name and password, `None` where there is none -/
structure Creds where
  user : Option Str
  pass : Option Str
deriving DecidableEq

/-- the file `.netrc`: missing or unreadable, without the host, or with an entry for the host -/
inductive Netrc where
  | missing
  | noHost
  | entry (user pass : Str)
deriving DecidableEq

/-- what a request ends with -/
inductive Answer (A : Type) where
  | gives (a : A)
  /-- `HTTPError` -/
  | http
  /-- `URLError` that is no `HTTPError` -/
  | url
  /-- any other exception -/
  | other

/-- exceptions -/
inductive Failure where
  /-- of `netrc.netrc()` -/
  | netrc
  | type | index
  /-- `RuntimeError('Check your NASA Earthdata credentials')` -/
  | credentials
  /-- `RuntimeError('Check internet connection')` -/
  | internet
  /-- `Exception('List error from ...')` -/
  | list
  /-- `Exception('Download error from ...')` -/
  | download
  /-- the exception itself -/
  | raised
deriving DecidableEq

/-- a listing: the texts of the names and of the third columns -/
structure Listing where
  names : List Str
  times : List Str

/-- the world outside: `.netrc`, the check of the credentials, listings and files by the installed opener (none: no opener has been
installed) and url -/
structure Server where
  netrc : Netrc
  check : Option Creds → Answer Unit
  list : Option Creds → Str → Answer Listing
  file : Option Creds → Str → Answer Bytes
  hash : Bytes → Str
  dateutil : Str → Option ℚ

/-- the state of the process: installed opener and local files -/
structure Session where
  opener : Option Creds
  disk : Disk

/-- truth value of a text that may be `None` -/
def truthy : Option Str → Bool
  | some (_ :: _) => true
  | _ => false

/-- `check_credentials` (utilities.py:1318-1333) -/
def checkCredentials (w : Server) (opener : Option Creds) : Except Failure Unit :=
  match w.check opener with
  | .gives _ => .ok ()
  | .http => .error .credentials
  | .url => .error .internet
  | .other => .error .raised

/-- the credentials (utilities.py:1381-1382): from `.netrc` if neither user name nor password is given; `authenticators` returns
`None` for an unknown host, which cannot be unpacked -/
def credentials (w : Server) (user pass : Option Str) : Except Failure Creds :=
  if ¬ (truthy user || truthy pass) then
    match w.netrc with
    | .missing => .error .netrc
    | .noHost => .error .type
    | .entry u p => .ok ⟨some u, some p⟩
  else .ok ⟨user, pass⟩

/-- how to sign in: the arguments `build`, `username` and `password` -/
structure Login where
  build : Bool
  user : Option Str
  pass : Option Str

/-- the first part of `drive_list` and `from_drive` (utilities.py:1380-1388): the opener is installed before it is checked -/
def signIn (w : Server) (l : Login) (s : Session) : Session × Except Failure Unit :=
  if l.build then
    match credentials w l.user l.pass with
    | .error e => (s, .error e)
    | .ok c => ({ s with opener := some c }, checkCredentials w (some c))
  else (s, .ok ())

/-- `drive_list` (utilities.py:1336-1417) for a host given as a list.  `pat`: does the pattern match somewhere in a name (none: no
pattern) -/
def driveList (w : Server) (host : List Str) (l : Login) (pat : Option (Str → Bool)) (sort : Bool) (s : Session) :
    Session × Except Failure (List Str × List (Option ℚ)) :=
  match signIn w l s with
  | (s, .error e) => (s, .error e)
  | (s, .ok _) =>
    match join host with
    | none => (s, .error .type)
    | some u =>
      match w.list s.opener u with
      | .http => (s, .error .list)
      | .url => (s, .error .list)
      | .other => (s, .error .raised)
      | .gives page =>
        match listing pat sort page.names (page.times.map (unixTime w.dateutil)) with
        | none => (s, .error .index)
        | some r => (s, .ok r)

/-- `from_drive` (utilities.py:1420-1519) for a host given as a list: `hash` is the checksum of the local file (an empty text by
default), `now` the time of writing -/
def fromDrive (w : Server) (now : ℚ) (host : List Str) (l : Login) (loc : Option Path) (hash : Str) (s : Session) :
    Session × Except Failure Bytes :=
  match signIn w l s with
  | (s, .error e) => (s, .error e)
  | (s, .ok _) =>
    match join host with
    | none => (s, .error .type)
    | some u =>
      match w.file s.opener u with
      | .http => (s, .error .download)
      | .url => (s, .error .download)
      | .other => (s, .error .raised)
      | .gives b =>
        match loc with
        | some p => if hash ≠ w.hash b then ({ s with disk := Function.update s.disk p (some ⟨b, now⟩) }, .ok b) else (s, .ok b)
        | none => (s, .ok b)

/-- a call -/
inductive Call where
  | list (host : List Str) (l : Login) (pat : Option (Str → Bool)) (sort : Bool)
  | file (now : ℚ) (host : List Str) (l : Login) (loc : Option Path) (hash : Str)

/-- the arguments for signing in -/
def Call.login : Call → Login
  | .list _ l _ _ => l
  | .file _ _ l _ _ => l

/-- the state after a call, whatever it returns or raises -/
def after (w : Server) (c : Call) (s : Session) : Session :=
  match c with
  | .list host l pat sort => (driveList w host l pat sort s).1
  | .file now host l loc hash => (fromDrive w now host l loc hash s).1

/-- a history of calls -/
def run (w : Server) (cs : List Call) (s : Session) : Session := cs.foldl (fun s c => after w c s) s

/-- a link of the page of the GSFC mascons as a complete address (utilities.py:2492) -/
def gsfcName (host : List Str) (link : Str) : Option Str := do
  let parts ← urlSplit link
  let h ← host.head?
  join (h :: parts)

/-- `gsfc_list` (utilities.py:2450-2500) for a host given as a list: the page gives the addresses of the links of its table; an address
whose split does not end raises `RecursionError` -/
def gsfcList (page : Str → Answer (List Str)) (host : List Str) (pat : Option (Str → Bool)) (sort : Bool) :
    Except Failure (List Str) :=
  match join host with
  | none => .error .type
  | some u =>
    match page u with
    | .http => .error .list
    | .url => .error .list
    | .other => .error .raised
    | .gives links =>
      match links.mapM (gsfcName host) with
      | none => .error .raised
      | some names =>
        let names := match pat with
          | none => names
          | some p => names.filter p
        .ok (if sort then List.insertionSort (fun a b => a ≤ b) names else names)

/-! ## Collection metadata -/

/-- the descriptors of the endpoints (utilities.py:1757-1760) -/
def relDoc (endpoint : String) : Option String :=
  if endpoint = "documentation" then some "http://esipfed.org/ns/fedsearch/1.1/documentation#"
  else relOf endpoint

/-- the loop over the links of an entry (utilities.py:1763-1765): an unknown endpoint raises `KeyError` at the first link -/
def entryUrls (endpoint : String) : List Link → Option (List String)
  | [] => some []
  | l :: r =>
    match relDoc endpoint with
    | none => none
    | some rel => (entryUrls endpoint r).map fun u => if l.rel = rel then l.href :: u else u

/-- the loop over the entries (utilities.py:1762-1765) -/
def feedUrls (endpoint : String) : List Entry → Option (List String)
  | [] => some []
  | e :: r =>
    match entryUrls endpoint e.links with
    | none => none
    | some u => (feedUrls endpoint r).map fun v => u ++ v

/-- `cmr_metadata_json` (utilities.py:1734-1767); `entries` is none if the json has no feed or entry -/
def metadataJson (endpoint : String) : Option (List Entry) → Option (List String)
  | none => some []
  | some es => feedUrls endpoint es

/-- the reduction by pattern in `cmr_metadata` (utilities.py:1998-2001) -/
def metadataUrls (endpoint : String) (pat : Option (String → Bool)) (entries : Option (List Entry)) : Option (List String) :=
  (metadataJson endpoint entries).map fun us => match pat with
    | none => us
    | some p => us.filter p

end Verif.Drive
