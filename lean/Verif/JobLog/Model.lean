import Verif.Utilities.Model
/-!
# Runs of the programs: outcome, messages and job logs

Models of `main`, `output_log_file` and `output_error_log_file` of the twelve programs with the option `--log`,
here with the lines of scripts/calc_mascon.py:723-759, 981-1048.  The same text, apart from the name of the program,
is in calc_degree_one, calc_sensitivity_kernel, dealiasing_global_uplift, grace_mean_harmonics, grace_raster_grids,
grace_spatial_error, grace_spatial_maps, monte_carlo_degree_one, piecewise_grace_maps, regress_grace_maps and
scale_grace_maps; without `--log` it is also that of combine_harmonics, convert_harmonics, mascon_reconstruct,
run_sea_level_equation and the plotting programs.

Python's `logging` is modelled as far as the programs use it: handlers of the root logger, its level,
`basicConfig` without `force`, messages to handlers.  `create_unique_file` opens in mode `'xb'`
(utilities.py:400), a binary file, for which `write` of a text is a TypeError.  The analysis is a parameter that
changes files and returns the names of its output or an exception; the messages it logs itself are not modelled.
-/
namespace Verif.JobLog
open Verif.Utilities (Str uniqueName uniqueLoop)

/-- where a handler writes -/
inductive Stream
  | stderr
  /-- an open file; `binary` for mode `'xb'` -/
  | file (path : Str) (binary : Bool)
  deriving DecidableEq, Repr

/-- the state of a process as far as messages and files go -/
structure Proc where
  handlers : List Stream
  level : ℕ
  stderr : List String
  files : Str → Option (List String)

/-- exceptions -/
inductive Exn
  | index                     -- IndexError
  | type                      -- TypeError
  | analysis (text : String)  -- an Exception of the analysis, with its traceback
  | interrupt                 -- KeyboardInterrupt and others that are not an Exception
  deriving DecidableEq, Repr

/-- the end of a run: the process ends, with an exception or without; or it is still looking for a file name -/
inductive Out
  | ends (p : Proc) (e : Option Exn)
  | searching (p : Proc)

/-- append to a file -/
def append (fs : Str → Option (List String)) (path : Str) (s : String) : Str → Option (List String) :=
  fun q => if q = path then (fs q).map (· ++ [s]) else fs q

/-- `write` of a text: TypeError for a binary file -/
def writeText (p : Proc) (path : Str) (binary : Bool) (s : String) : Except Exn Proc :=
  if binary then .error .type else .ok { p with files := append p.files path s }

/-- A handler writes a record; an exception of the stream is reported on stderr (`Handler.handleError`). -/
def emit (s : String) (p : Proc) : Stream → Proc
  | .stderr => { p with stderr := p.stderr ++ [s] }
  | .file path b =>
    match writeText p path b s with
    | .ok p' => p'
    | .error _ => { p with stderr := p.stderr ++ ["--- Logging error ---"] }

/-- `logging.basicConfig(stream=.., level=..)`: nothing happens if the root logger has a handler -/
def basicConfig (st : Stream) (lv : ℕ) (p : Proc) : Proc :=
  if p.handlers = [] then { p with handlers := [st], level := lv } else p

/-- `logging.info`, `.error`, `.critical` with levels 20, 40, 50 -/
def log (lv : ℕ) (p : Proc) (s : String) : Proc :=
  let p := basicConfig .stderr p.level p
  if p.level ≤ lv then p.handlers.foldl (emit s) p else p

/-- several messages of level INFO -/
def infos (p : Proc) (ms : List String) : Proc := ms.foldl (log 20) p

/-- what does not change from run to run: program, date and process, arguments sorted by name -/
structure Job where
  logName : Str       -- e.g. calc_mascon_run_2002-04-01_PID-70335.log
  failedName : Str    -- e.g. calc_mascon_failed_run_2002-04-01_PID-70335.log
  pid : String
  args : List (String × String)
  greeting : List String

/-- `gravtk.utilities.create_unique_file` in the output directory, for at most `fuel` attempts (calc_mascon.py:729,
utilities.py:383-408) -/
def openUnique (fuel : ℕ) (dirExists : Bool) (p : Proc) (name : Str) : Option (Str × Proc) :=
  (uniqueLoop (fun q => dirExists && (p.files q).isNone) name fuel 0).map fun k =>
    (uniqueName name k, { p with files := fun q => if q = uniqueName name k then some [] else p.files q })

/-- the lines for the arguments (calc_mascon.py:732-734) -/
def argLines (job : Job) : List String := "ARGUMENTS:" :: job.args.map fun a => a.1 ++ ": " ++ a.2

/-- `output_log_file` (calc_mascon.py:723-740) -/
def outputLog (fuel : ℕ) (dirExists : Bool) (job : Job) (outputs : List String) (p : Proc) : Out :=
  match openUnique fuel dirExists p job.logName with
  | none => .searching p
  | some (path, p) =>
    let p := basicConfig (.file path true) 20 p
    let p := infos p (argLines job ++ "\n\nOUTPUT FILES:" :: outputs)
    .ends p none

/-- `output_error_log_file` (calc_mascon.py:743-759): `traceback.print_exc(file=fid)` writes to the file itself -/
def outputErrorLog (fuel : ℕ) (dirExists : Bool) (job : Job) (traceback : String) (p : Proc) : Out :=
  match openUnique fuel dirExists p job.failedName with
  | none => .searching p
  | some (path, p) =>
    let p := basicConfig (.file path true) 20 p
    let p := infos p (argLines job ++ ["\n\nTRACEBACK ERROR:"])
    match writeText p path true traceback with
    | .error e => .ends p (some e)
    | .ok p => .ends p none

/-- `loglevels` (calc_mascon.py:987) -/
def loglevels : List ℕ := [50, 20, 10]

/-- text of the traceback -/
def traceback : Exn → String
  | .analysis t => t
  | _ => ""

/-- `main` (calc_mascon.py:981-1048); `verbose` counts the options `-V`, `log` is `--log`.  `dirExists` tells if the
output directory exists after the analysis. -/
def main (fuel : ℕ) (dirExists : Bool) (job : Job) (verbose : ℕ) (logs : Bool)
    (work : (Str → Option (List String)) → (Str → Option (List String)) × Except Exn (List String)) (p : Proc) :
    Out :=
  match loglevels[verbose]? with
  | none => .ends p (some .index)
  | some lv =>
    let p := basicConfig .stderr lv p
    let p := infos p job.greeting
    let w := work p.files
    let p := { p with files := w.1 }
    match w.2 with
    | .ok outputs => if logs then outputLog fuel dirExists job outputs p else .ends p none
    | .error .interrupt => .ends p (some .interrupt)
    | .error e =>
      let p := log 50 p ("process id " ++ job.pid ++ " failed")
      let p := log 40 p (traceback e)
      if logs then outputErrorLog fuel dirExists job (traceback e) p else .ends p none

/-- exit status of the process -/
def status : Out → Option ℕ
  | .ends _ none => some 0
  | .ends _ (some .interrupt) => some 130
  | .ends _ (some _) => some 1
  | .searching _ => none

end Verif.JobLog
