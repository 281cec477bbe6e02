import Verif.DegreeOne.Model

/-!
# Model of `scripts/monte_carlo_degree_one.py` (`monte_carlo_degree_one`)

Exact real arithmetic, on top of the model of `calc_degree_one.py`, with which the script shares the preparations (its
Legendre functions go to degree `LMAX`: `setup` with `EXPANSION = LMAX`), the I-parameter matrix, the synthesis and the
eustatic part. Arguments: the monthly fields after reading, mean removal and filtering (monte_carlo_degree_one.py:414-480),
the uncertainty fields (the delta coefficients of lines 506-580, then the error files), the seasonal series of line 627 and
the random numbers. Not modelled: reading of the files, headers, netCDF4 output, plots.
-/
namespace Verif.MonteCarlo
open Verif.Analysis Verif.DegreeOne Verif.Units Finset

/-- sum of two sets of coefficients -/
def addC (a b : CSlm) : CSlm := ⟨fun l m => a.clm l m + b.clm l m, fun l m => a.slm l m + b.slm l m⟩

/-- no coefficients -/
def zeroC : CSlm := ⟨fun _ _ => 0, fun _ _ => 0⟩

/-- `(1.0-2.0*np.random.rand(...))*delta` (monte_carlo_degree_one.py:640-645), `u` the random numbers -/
noncomputable def drawn (err u : CSlm) : CSlm :=
  ⟨fun l m => (1 - 2 * u.clm l m) * err.clm l m, fun l m => (1 - 2 * u.slm l m) * err.slm l m⟩

/-- the noise of a month: one random field for each uncertainty field (monte_carlo_degree_one.py:638-645) -/
noncomputable def noise : List CSlm → List CSlm → CSlm
  | e :: es, u :: us => addC (drawn e u) (noise es us)
  | _, _ => zeroC

/-- coefficients of a month without GIA and atmospheric correction, with noise
(monte_carlo_degree_one.py:647-650, 665-666, 687-701) -/
noncomputable def reduced (gsm : CSlm) (d : Month) (p : CSlm) : CSlm := addC (subC (subC gsm d.gia) d.atm) p

variable (s : Setup)

/-- `GMAT` (monte_carlo_degree_one.py:652-681): after the first run the degree one coefficients of the month are the seasonal
ones, which were assigned to the data in place (monte_carlo_degree_one.py:683-686) -/
noncomputable def gmatN (first : Bool) (d : Month) (x : V3) (p : CSlm) : V3 := fun c =>
  project s c (gridMass s 2 (reduced (if first then d.gsm else setDeg1 d.gsm x) d p))

/-- `CMAT` (monte_carlo_degree_one.py:683-750) -/
noncomputable def eustaticN (e : Eustatic) (d : Month) (x : V3) (p : CSlm) : Option V3 :=
  let lmass := gridMass s 1 (reduced (setDeg1 d.gsm x) d p)
  match e with
  | .fingerprint f => do
    let seaLevel ← f fun k i => lmass k i * land s.g k i
    let slf ← stokes1 s seaLevel
    some fun c => deg1 slf c * dfac s 1
  | .uniform => do
    let oceanY ← stokes1 s (ocean s.g)
    let landY ← stokes1 s (fun k i => lmass k i * land s.g k i)
    let ratio := -landY.clm 0 0 / oceanY.clm 0 0
    some fun c => deg1 oceanY c * (ratio * dfac s 1)

/-- solution of a system (monte_carlo_degree_one.py:757-763): without a branch for the solver `DMAT` is not defined -/
noncomputable def solveN (v : Solver) (A : Matrix (Fin 3) (Fin 3) ℝ) (b : V3) : Option V3 :=
  match v with
  | .other => none
  | v => solve v A b

/-- `DMAT` of a month of a run -/
noncomputable def dmatN (e : Eustatic) (v : Solver) (first : Bool) (d : Month) (x : V3) (p : CSlm) : Option V3 := do
  let c ← eustaticN s e d x p
  solveN v (imat s) fun j => c j - gmatN s first d x p j

/-- one run (monte_carlo_degree_one.py:635-771): solutions, GIA and atmosphere added, mean over the months removed -/
noncomputable def run (e : Eustatic) (v : Solver) (first : Bool) (n : ℕ) (d : ℕ → Month) (x : ℕ → V3) (p : ℕ → CSlm) :
    Option (ℕ → V3) :=
  (allMonths n fun t => dmatN s e v first (d t) (x t) (p t)).map fun D =>
    centre n fun t j => D t j + deg1 (d t).gia j + deg1 (d t).atm j

/-- all runs; `u r t` are the random fields of month `t` of run `r` -/
noncomputable def runs (e : Eustatic) (v : Solver) (RUNS n : ℕ) (d : ℕ → Month) (x : ℕ → V3) (errs : List CSlm)
    (u : ℕ → ℕ → List CSlm) : Option (ℕ → ℕ → V3) :=
  allMonths RUNS fun r => run s e v (r == 0) n d x fun t => noise errs (u r t)

/-- `MEAN` (monte_carlo_degree_one.py:773-777) -/
noncomputable def mean (RUNS : ℕ) (it : ℕ → ℕ → V3) : ℕ → V3 := fun t j => (∑ r ∈ range RUNS, it r t j) / RUNS

/-- `RMS` (monte_carlo_degree_one.py:779-787) -/
noncomputable def rms (RUNS : ℕ) (it : ℕ → ℕ → V3) : ℕ → V3 := fun t j =>
  Real.sqrt ((∑ r ∈ range RUNS, (it r t j - mean RUNS it t j) ^ 2) / RUNS)

/-- what is written: `DEG1` and `ERROR` (monte_carlo_degree_one.py:789-793, text file) and the runs (netCDF4 file, 860-864) -/
structure Output where
  deg1 : ℕ → V3
  error : ℕ → V3
  runs : ℕ → ℕ → V3

/-- `monte_carlo_degree_one` -/
noncomputable def monteCarlo (e : Eustatic) (v : Solver) (RUNS n : ℕ) (d : ℕ → Month) (x : ℕ → V3) (errs : List CSlm)
    (u : ℕ → ℕ → List CSlm) : Option Output :=
  (runs s e v RUNS n d x errs u).map fun it =>
    ⟨fun t j => 1 / dfac s 1 * mean RUNS it t j, fun t j => 1 / dfac s 1 * rms RUNS it t j, fun r t j => it r t j / dfac s 1⟩

end Verif.MonteCarlo
