import Verif.Utilities.Model

/-!
# Model of the programs that mirror remote directories

`scripts/podaac_cumulus.py`, `gfz_isdc_grace_ftp.py`, `gfz_icgem_costg_ftp.py`, `gfz_isdc_dealiasing_ftp.py`,
`itsg_graz_grace_sync.py`, `esa_costg_swarm_sync.py`, `cnes_grace_sync.py`.

A disk maps paths to files with contents and modification time.  What the network delivers is an argument: the pieces in
which the contents arrive, which need not add up to the contents.  A program may be interrupted after every step that
changes a file.  Not modelled: logins, permissions, log files, the search of the remote directories (their listings are
arguments) and, with `--gzip`, the compression (the contents of the remote file then stand for the compressed ones).
-/
namespace Verif.Sync
open Verif.Utilities (even Str Bytes)

/-- a local file: contents and `st_mtime` -/
structure LFile where
  data : Bytes
  mtime : ℚ

/-- local files by path -/
abbrev Disk := Str → Option LFile

/-- an entry of the remote listing: where its copy goes, its contents and modification time -/
structure Remote where
  name : Str
  data : Bytes
  mtime : ℚ

/-- command line options -/
structure Opts where
  CHECKSUM : Bool := false
  CLOBBER : Bool := false
  LIST : Bool := false

/-- what happens during a transfer: the pieces written, and the clock when the file is opened (0) and after each piece -/
structure Transfer where
  chunks : List Bytes
  clock : ℕ → ℚ

variable {H : Type} [DecidableEq H] (hash : Bytes → H)

/-- `TEST` (gfz_isdc_grace_ftp.py:286-313, gfz_icgem_costg_ftp.py:151-178, esa_costg_swarm_sync.py:145-176; without
`CHECKSUM` podaac_cumulus.py:294-308 and 337-351, itsg_graz_grace_sync.py:178-192, gfz_isdc_dealiasing_ftp.py:164-178) -/
def test (o : Opts) (r : Remote) : Option LFile → Bool
  | none => true
  | some f => if o.CHECKSUM then decide (hash f.data ≠ hash r.data) else decide (even r.mtime > even f.mtime)

/-- the file is transferred, or with `LIST` named (gfz_isdc_grace_ftp.py:315) -/
def wanted (o : Opts) (r : Remote) (f : Option LFile) : Bool := test hash o r f || o.CLOBBER

/-- states of the local file while it is written: opened with mode `wb`, after each piece, after `os.utime`
(gfz_isdc_grace_ftp.py:323-336, podaac_cumulus.py:322-331) -/
def states (x : Transfer) (r : Remote) : List LFile :=
  (List.range (x.chunks.length + 1)).map (fun k : ℕ => ⟨(x.chunks.take k).flatten, x.clock k⟩) ++
    [⟨x.chunks.flatten, r.mtime⟩]

/-- `ftp_mirror_file`, `http_pull_file`, `s3_pull_file` (gfz_isdc_grace_ftp.py:281-337 and the same functions of the other
programs), interrupted after `stop` changes of the file, or not interrupted: the local file afterwards -/
def pull (o : Opts) (x : Transfer) (stop : Option ℕ) (r : Remote) (f : Option LFile) : Option LFile :=
  if wanted hash o r f && !o.LIST then
    match stop with
    | none => (states x r).getLast?
    | some 0 => f
    | some (k + 1) => (states x r)[k]?.or ((states x r).getLast?)
  else f

/-- an entry of the disk -/
def set (d : Disk) (p : Str) (f : Option LFile) : Disk := fun q => if q = p then f else d q

/-- the loop over the listing (gfz_isdc_grace_ftp.py:246-252, podaac_cumulus.py:247-265): `x` gives the transfers -/
def run (o : Opts) (x : Str → Transfer) (rs : List Remote) (d : Disk) : Disk :=
  rs.foldl (fun d r => set d r.name (pull hash o (x r.name) none r (d r.name))) d

/-- the loop interrupted after `k` changes of the copy of entry `i` -/
def crash (o : Opts) (x : Str → Transfer) (i k : ℕ) (rs : List Remote) (d : Disk) : Disk :=
  let d := run hash o x (rs.take i) d
  match rs[i]? with
  | none => d
  | some r => set d r.name (pull hash o (x r.name) (some k) r (d r.name))

/-- the names that the program prints (gfz_isdc_grace_ftp.py:315-319) -/
def printed (o : Opts) (x : Str → Transfer) : List Remote → Disk → List Str
  | [], _ => []
  | r :: rs, d =>
    let more := printed o x rs (set d r.name (pull hash o (x r.name) none r (d r.name)))
    if wanted hash o r (d r.name) then r.name :: more else more

/-! ## Histories -/

/-- what can happen: the server has a new listing, the program runs, the program is interrupted -/
inductive Event where
  | publish (rs : List Remote)
  | run (o : Opts) (x : Str → Transfer)
  | crash (o : Opts) (x : Str → Transfer) (i k : ℕ)

/-- server and disk -/
structure World where
  server : List Remote
  disk : Disk

/-- one event -/
def step (w : World) : Event → World
  | .publish rs => { w with server := rs }
  | .run o x => { w with disk := run hash o x w.server w.disk }
  | .crash o x i k => { w with disk := crash hash o x i k w.server w.disk }

/-- a history -/
def after (w : World) (es : List Event) : World := es.foldl (step hash) w

/-- degree one and SLR files of `podaac_cumulus.py` have no modification time on the server: they get the time at which
the program started (podaac_cumulus.py:129-130, 153-160, 175-182) -/
def stamped (start : ℚ) (rs : List Remote) : List Remote := rs.map fun r => { r with mtime := start }

/-! ## Archives: `cnes_grace_sync.py` -/

/-- four bytes, little endian -/
def le32 (n : ℕ) : Bytes := (List.range 4).map fun k : ℕ => UInt8.ofNat (n / 256 ^ k % 256)

/-- `struct.unpack("<I", ..)` of four bytes -/
def unpack32 (b : Bytes) : Option ℕ :=
  match b with
  | [a, b, c, d] => some (a.toNat + 256 * b.toNat + 256 ^ 2 * c.toNat + 256 ^ 3 * d.toNat)
  | _ => none

/-- a member of the archive; `packed` is what the compressor makes of the contents -/
structure Member where
  mtime : ℕ
  packed : Bytes

/-- the compressed file (Python's gzip.py): magic number, method and flags, the time, the rest -/
def gzip (m : Member) : Bytes := [0x1f, 0x8b, 0x08, 0x08] ++ le32 m.mtime ++ m.packed

/-- `file2_mtime` (cnes_grace_sync.py:240-244); `none`: the file is too short for `struct.unpack` -/
def gzipTime (b : Bytes) : Option ℕ := unpack32 ((b.drop 4).take 4)

/-- `gzip_copy_file` (cnes_grace_sync.py:229-270), interrupted when `stop` bytes are on the disk, or not interrupted; the
outer `none` is an exception: an unreadable time, or a time that does not fit into the header -/
def gzipCopy (CLOBBER : Bool) (stop : Option ℕ) (now : ℚ) (m : Member) (f : Option LFile) : Option (Option LFile) := do
  let newer ← match f with
    | none => some true
    | some g => (gzipTime g.data).map fun t => decide (m.mtime > t)
  if newer || CLOBBER then
    match stop with
    | some k => some (some ⟨(gzip m).take k, now⟩)
    | none => if m.mtime < 2 ^ 32 then some (some ⟨gzip m, m.mtime⟩) else none
  else some f

/-! ## Monthly archives: `gfz_isdc_dealiasing_ftp.py` -/

/-- one month with `TAR` (gfz_isdc_dealiasing_ftp.py:106-136): members of the local archive -/
def tarMonth (CLOBBER : Bool) (files : List Remote) (loc : Option (List Remote)) : Option (List Remote) :=
  if 0 < files.length ∧ (loc = none ∨ CLOBBER = true) then some files else loc

/-! ## Listing by pages: `esa_costg_swarm_sync.py` -/

/-- the loop over pages (esa_costg_swarm_sync.py:95-121) with `fuel` requests: it goes on while a page has the 500 entries
asked for; `none`: not finished -/
def swarmPages {A : Type} (page : ℕ → List A) : ℕ → ℕ → Option (List A)
  | 0, _ => none
  | fuel + 1, pos =>
    if (page pos).length = 500 then (swarmPages page fuel (pos + (page pos).length)).map (page pos ++ ·)
    else some (page pos)

end Verif.Sync
