import Verif.JobLog.Model
import Verif.Utilities.Files
/-!
# C113: outcome, messages and job logs of the programs
-/
namespace Verif.JobLog
open Verif.Utilities (Str uniqueName uniqueLoop uniqueLoop_from createUnique_forever)

/-- a process that has just been started: no handlers, level WARNING, nothing on stderr -/
def Started (p : Proc) : Prop := p.handlers = [] ∧ p.level = 30 ∧ p.stderr = []

/-- the state of a process with the handler that `main` sets up -/
structure Up (lv : ℕ) (p : Proc) : Prop where
  handlers : p.handlers = [.stderr]
  level : p.level = lv

theorem log_up {lv : ℕ} {p : Proc} (h : Up lv p) (l : ℕ) (s : String) :
    log l p s = { p with stderr := p.stderr ++ if lv ≤ l then [s] else [] } := by
  have hb : basicConfig .stderr p.level p = p := by
    unfold basicConfig; rw [h.handlers]; rfl
  unfold log
  rw [hb]
  simp only [h.level]
  by_cases hl : lv ≤ l
  · rw [if_pos hl, if_pos hl, h.handlers, ← h.level]
    rcases p with ⟨hs, _, _, _⟩
    have : hs = [.stderr] := h.handlers
    subst this; rfl
  · rw [if_neg hl, if_neg hl, List.append_nil, ← h.level]

theorem infos_up {lv : ℕ} {p : Proc} (h : Up lv p) (ms : List String) :
    infos p ms = { p with stderr := p.stderr ++ if lv ≤ 20 then ms else [] } := by
  unfold infos
  induction ms generalizing p with
  | nil => by_cases hl : lv ≤ 20 <;> simp [hl]
  | cons m ms ih =>
    rw [List.foldl_cons, log_up h]
    rw [ih (p := ⟨p.handlers, p.level, p.stderr ++ if lv ≤ 20 then [m] else [], p.files⟩) ⟨h.handlers, h.level⟩]
    by_cases hl : lv ≤ 20 <;> simp [hl]

theorem openUnique_spec (fuel : ℕ) (p : Proc) (name : Str) (n : ℕ) (hn : p.files (uniqueName name n) = none)
    (hlt : ∀ j, j < n → p.files (uniqueName name j) ≠ none) (hf : n < fuel) :
    openUnique fuel true p name = some (uniqueName name n,
      { p with files := fun q => if q = uniqueName name n then some [] else p.files q }) := by
  unfold openUnique
  rw [uniqueLoop_from _ name n (by simp [hn]) (by
    intro j hj
    have := hlt j hj
    cases h : p.files (uniqueName name j)
    · exact absurd h this
    · simp) fuel 0 (by omega) (by omega)]
  rfl

theorem openUnique_missing (fuel : ℕ) (p : Proc) (name : Str) : openUnique fuel false p name = none := by
  unfold openUnique
  have := createUnique_forever name fuel 0
  simp only [Bool.false_and]
  rw [this]; rfl

section
variable (fuel : ℕ) (dirExists : Bool) (job : Job) (verbose : ℕ) (logs : Bool)
  (work : (Str → Option (List String)) → (Str → Option (List String)) × Except Exn (List String)) (p : Proc)

/-- the greeting on stderr for a verbosity -/
def greet (job : Job) (verbose : ℕ) : List String := if verbose = 0 then [] else job.greeting

theorem start (hp : Started p) (hv : verbose < 3) :
    ∃ lv, loglevels[verbose]? = some lv ∧ Up lv (basicConfig .stderr lv p) ∧ (lv ≤ 20 ↔ verbose ≠ 0) ∧
      (lv ≤ 40 ↔ verbose ≠ 0) ∧ lv ≤ 50 ∧
      infos (basicConfig .stderr lv p) job.greeting =
        ⟨[.stderr], lv, greet job verbose, p.files⟩ := by
  obtain ⟨h1, h2, h3⟩ := hp
  have hup : ∀ lv, Up lv (basicConfig .stderr lv p) := by
    intro lv; unfold basicConfig; rw [if_pos h1]; exact ⟨rfl, rfl⟩
  have heq : ∀ lv, (lv ≤ 20 ↔ verbose ≠ 0) → infos (basicConfig .stderr lv p) job.greeting =
      ⟨[.stderr], lv, greet job verbose, p.files⟩ := by
    intro lv hlv
    rw [infos_up (hup lv)]
    unfold basicConfig greet
    rw [if_pos h1]
    simp only [h3, List.nil_append]
    by_cases hz : verbose = 0
    · rw [if_neg (by rw [hlv]; simpa using hz), if_pos hz]
    · rw [if_pos (hlv.2 hz), if_neg hz]
  match verbose, hv with
  | 0, _ => exact ⟨50, rfl, hup 50, by simp, by simp, by omega, heq 50 (by simp)⟩
  | 1, _ => exact ⟨20, rfl, hup 20, by simp, by simp, by omega, heq 20 (by simp)⟩
  | 2, _ => exact ⟨10, rfl, hup 10, by simp, by simp, by omega, heq 10 (by simp)⟩

/-- **C113** A run that succeeds, without `--log`: status 0, the files are those of the analysis, and without `-V`
nothing is printed. -/
theorem main_success (hp : Started p) (hv : verbose < 3) (outs : List String) (fs)
    (hw : work p.files = (fs, .ok outs)) :
    main fuel dirExists job verbose false work p =
      .ends ⟨[.stderr], loglevels.getD verbose 0, greet job verbose, fs⟩ none := by
  obtain ⟨lv, h1, _, _, _, _, h2⟩ := start job verbose p hp hv
  unfold main
  simp only [h1, h2, hw]
  have : loglevels.getD verbose 0 = lv := by
    rw [List.getD_eq_getElem?_getD, h1]; rfl
  rw [this]
  rfl

/-- **C113** Deviation: a run that fails, without `--log`, ends with the *same* status 0 as one that succeeds; without `-V`
the only message is that the process failed, and the reason (the traceback) is lost. -/
theorem main_failure (hp : Started p) (hv : verbose < 3) (t : String) (fs)
    (hw : work p.files = (fs, .error (.analysis t))) :
    ∃ q, main fuel dirExists job verbose false work p = .ends q none ∧ q.files = fs ∧
      q.stderr = greet job verbose ++ ["process id " ++ job.pid ++ " failed"] ++
        (if verbose = 0 then [] else [t]) := by
  obtain ⟨lv, h1, _, hl20, hl40, hl50, h2⟩ := start job verbose p hp hv
  unfold main
  simp only [h1, h2, hw]
  refine ⟨_, rfl, ?_, ?_⟩
  · rw [log_up (lv := lv) ⟨rfl, rfl⟩ 50, log_up (lv := lv) ⟨rfl, rfl⟩ 40]
  · rw [log_up (lv := lv) ⟨rfl, rfl⟩ 50, log_up (lv := lv) ⟨rfl, rfl⟩ 40]
    simp only [if_pos hl50, traceback]
    by_cases hz : verbose = 0
    · rw [if_neg (by rw [hl40]; simpa using hz), if_pos hz]
    · rw [if_pos (hl40.2 hz), if_neg hz]

/-- **C113** With `--log`, a run that succeeds creates a log file under a name that was free and changes no other file,
but (deviation) the log is always *empty*: the arguments and output files go to stderr, if `-V` is given. -/
theorem main_log_success (hp : Started p) (hv : verbose < 3) (outs : List String) (fs : Str → Option (List String))
    (hw : work p.files = (fs, .ok outs)) (n : ℕ) (hn : fs (uniqueName job.logName n) = none)
    (hlt : ∀ j, j < n → fs (uniqueName job.logName j) ≠ none) (hf : n < fuel) :
    ∃ q, main fuel true job verbose true work p = .ends q none ∧
      q.files (uniqueName job.logName n) = some [] ∧
      (∀ r, r ≠ uniqueName job.logName n → q.files r = fs r) ∧
      q.stderr = greet job verbose ++ (if verbose = 0 then [] else
        argLines job ++ "\n\nOUTPUT FILES:" :: outs) := by
  obtain ⟨lv, h1, _, hl20, hl40, hl50, h2⟩ := start job verbose p hp hv
  unfold main
  simp only [h1, h2, hw, if_true]
  unfold outputLog
  rw [openUnique_spec fuel _ job.logName n (by exact hn) (by exact hlt) hf]
  simp only
  have hb : ∀ (q : Proc) st l, Up lv q → basicConfig st l q = q := by
    intro q st l hq; unfold basicConfig; rw [hq.handlers]; rfl
  rw [hb _ _ _ ⟨rfl, rfl⟩, infos_up (lv := lv) ⟨rfl, rfl⟩]
  refine ⟨_, rfl, ?_, ?_, ?_⟩
  · simp
  · intro r hr
    simp [hr]
  · simp only
    by_cases hz : verbose = 0
    · rw [if_neg (by rw [hl20]; simpa using hz), if_pos hz]
    · rw [if_pos (hl20.2 hz), if_neg hz]

/-- **C113** Deviation: with `--log`, a run that fails leaves an *empty* log of the failure and ends with a TypeError of the
log itself (the file is binary and the traceback is text), so with status 1. -/
theorem main_log_failure (hp : Started p) (hv : verbose < 3) (t : String) (fs : Str → Option (List String))
    (hw : work p.files = (fs, .error (.analysis t))) (n : ℕ) (hn : fs (uniqueName job.failedName n) = none)
    (hlt : ∀ j, j < n → fs (uniqueName job.failedName j) ≠ none) (hf : n < fuel) :
    ∃ q, main fuel true job verbose true work p = .ends q (some .type) ∧
      q.files (uniqueName job.failedName n) = some [] ∧
      (∀ r, r ≠ uniqueName job.failedName n → q.files r = fs r) := by
  obtain ⟨lv, h1, _, hl20, hl40, hl50, h2⟩ := start job verbose p hp hv
  unfold main
  simp only [h1, h2, hw, if_true]
  rw [log_up (lv := lv) ⟨rfl, rfl⟩ 50, log_up (lv := lv) ⟨rfl, rfl⟩ 40]
  unfold outputErrorLog
  rw [openUnique_spec fuel _ job.failedName n (by exact hn) (by exact hlt) hf]
  simp only
  have hb : ∀ (q : Proc) st l, Up lv q → basicConfig st l q = q := by
    intro q st l hq; unfold basicConfig; rw [hq.handlers]; rfl
  rw [hb _ _ _ ⟨rfl, rfl⟩, infos_up (lv := lv) ⟨rfl, rfl⟩]
  refine ⟨_, rfl, ?_, ?_⟩
  · simp
  · intro r hr
    simp [hr]

/-- **C113** Deviation: with `--log`, if the output directory does not exist (the analysis may have failed before it
made the directory), the run never ends: after any number of attempts it is still trying names. -/
theorem main_log_missing (hv : verbose < 3) (r : Except Exn (List String)) (hr : r ≠ .error .interrupt)
    (hw : ∀ fs, (work fs).2 = r) : ∃ q, main fuel false job verbose true work p = .searching q := by
  have : ∃ lv, loglevels[verbose]? = some lv := by
    match verbose, hv with
    | 0, _ => exact ⟨50, rfl⟩
    | 1, _ => exact ⟨20, rfl⟩
    | 2, _ => exact ⟨10, rfl⟩
  obtain ⟨lv, h1⟩ := this
  unfold main
  simp only [h1, hw]
  rcases r with e | outs
  · cases e with
    | interrupt => exact absurd rfl hr
    | index => exact ⟨_, by simp only [if_true, outputErrorLog, openUnique_missing]; rfl⟩
    | type => exact ⟨_, by simp only [if_true, outputErrorLog, openUnique_missing]; rfl⟩
    | analysis t => exact ⟨_, by simp only [if_true, outputErrorLog, openUnique_missing]; rfl⟩
  · exact ⟨_, by simp only [if_true, outputLog, openUnique_missing]; rfl⟩

/-- **C113** A third `-V` is an IndexError before the analysis is begun. -/
theorem main_verbose (hv : 3 ≤ verbose) : main fuel dirExists job verbose logs work p = .ends p (some .index) := by
  unfold main
  rw [List.getElem?_eq_none (by simpa [loglevels] using hv)]

/-- **C113** An interrupt is not caught: no log is written and the status tells it. -/
theorem main_interrupt (hv : verbose < 3) (hw : ∀ fs, (work fs).2 = .error .interrupt) :
    ∃ q, main fuel dirExists job verbose logs work p = .ends q (some .interrupt) ∧
      ∃ fs, q.files = (work fs).1 := by
  have : ∃ lv, loglevels[verbose]? = some lv := by
    match verbose, hv with
    | 0, _ => exact ⟨50, rfl⟩
    | 1, _ => exact ⟨20, rfl⟩
    | 2, _ => exact ⟨10, rfl⟩
  obtain ⟨lv, h1⟩ := this
  unfold main
  simp only [h1, hw]
  exact ⟨_, rfl, _, rfl⟩

/-- **C113** The exit status without `--log` does not tell a failure from a success. -/
theorem status_blind (hp : Started p) (hv : verbose < 3) (t : String) (fs) (outs)
    (work' : (Str → Option (List String)) → (Str → Option (List String)) × Except Exn (List String))
    (hw : work p.files = (fs, .error (.analysis t))) (hw' : work' p.files = (fs, .ok outs)) :
    status (main fuel dirExists job verbose false work p) = some 0 ∧
    status (main fuel dirExists job verbose false work' p) = some 0 := by
  obtain ⟨q, hq, _⟩ := main_failure fuel dirExists job verbose work p hp hv t fs hw
  rw [hq, main_success fuel dirExists job verbose work' p hp hv outs fs hw']
  exact ⟨rfl, rfl⟩

end

/-- the hypotheses can be met: a fresh process, an analysis that fails, a first log name that is taken -/
example : ∃ (p : Proc) (fs : Str → Option (List String)) (name : Str), Started p ∧
    fs (uniqueName name 0) ≠ none ∧ fs (uniqueName name 1) = none :=
  ⟨⟨[], 30, [], fun _ => none⟩, fun q => if q = "a.log".toList then some ["x"] else none, "a.log".toList,
    ⟨rfl, rfl, rfl⟩, by decide, by decide +kernel⟩

/-- **C113** An interrupt is seen in the exit status, as is the failure of a log. -/
theorem interrupt_status (fuel : ℕ) (dirExists : Bool) (job : Job) (verbose : ℕ) (logs : Bool) (work) (p : Proc) (hv : verbose < 3)
    (hw : ∀ fs, (work fs).2 = .error .interrupt) :
    status (main fuel dirExists job verbose logs work p) = some 130 := by
  obtain ⟨q, h, -⟩ := main_interrupt fuel dirExists job verbose logs work p hv hw
  rw [h]; rfl

/-- **C113** The lines for the arguments: a title and one line with name and value for each. -/
theorem argLines_lines (job : Job) : (argLines job).length = job.args.length + 1 ∧ (argLines job).head? = some "ARGUMENTS:" ∧
    ∀ a ∈ job.args, a.1 ++ ": " ++ a.2 ∈ argLines job := by
  refine ⟨by simp [argLines], rfl, fun a ha => ?_⟩
  exact List.mem_cons_of_mem _ (List.mem_map.2 ⟨a, ha, rfl⟩)

/-- **C113** A log that were opened as text would get its lines, after those it has: the mode is the only cause of the empty logs. -/
theorem text_log (p : Proc) (path : Str) (l : List String) (s : String) (h : p.files path = some l) :
    ∃ q, writeText p path false s = .ok q ∧ q.files path = some (l ++ [s]) ∧ ∀ r ≠ path, q.files r = p.files r := by
  refine ⟨_, rfl, ?_, ?_⟩
  · simp [append, h]
  · intro r hr
    simp [append, hr]

end Verif.JobLog
