import Verif.TimeSeries.Model
import Mathlib.Data.Nat.Factorial.Basic
import Mathlib.Analysis.SpecialFunctions.Pow.Real

/-!
# Model of `time_series/smooth.py`, `savitzky_golay.py` and `lomb_scargle.py`

Exact real arithmetic.  Series are functions on `ℕ` together with their length `n`.  As in
`Verif.TimeSeries.Model` a series of one sample raises (`np.squeeze`), and divisions by zero
give 0, so theorems about quotients assume nonzero divisors.
-/
namespace Verif.TimeSeries
open Matrix Finset

/-- `MOVING=True`: number of values, times and smoothed data (smooth.py:158-169).  `none`: the negative
size of `np.zeros`. -/
noncomputable def smoothMoving (n H : ℕ) (t d : ℕ → ℝ) : Option (ℕ × (ℕ → ℝ) × (ℕ → ℝ)) :=
  if n = 1 ∨ n < 2 * H then none
  else some (n - 2 * H, fun k => t (k + H),
    fun k => (∑ j ∈ Finset.Ico (k + 1) (k + 2 * H), d j + 1 / 2 * (d k + d (k + 2 * H))) / (2 * H))

/-- the window design matrix `TMAT` (smooth.py:204-215, 270-281): constant, linear, annual and semi-annual -/
noncomputable def tmat (H : ℕ) (t : ℕ → ℝ) (i : ℕ) : Matrix (Fin (2 * H + 1)) (Fin 6) ℝ := fun r c =>
  match c with
  | 0 => 1
  | 1 => t (i + r)
  | 2 => Real.sin (2 * Real.pi * t (i + r))
  | 3 => Real.cos (2 * Real.pi * t (i + r))
  | 4 => Real.sin (4 * Real.pi * t (i + r))
  | 5 => Real.cos (4 * Real.pi * t (i + r))

/-- coefficients of window `i` (smooth.py:218, 284) -/
noncomputable def wbeta (H : ℕ) (t d : ℕ → ℝ) (i : ℕ) : Fin 6 → ℝ := lstsq (tmat H t i) (fun r => d (i + r))

/-- part of a window model from the columns in `[a, b)` at row `r` -/
noncomputable def part (H : ℕ) (t : ℕ → ℝ) (i : ℕ) (b : Fin 6 → ℝ) (lo hi : ℕ) (r : Fin (2 * H + 1)) : ℝ :=
  ∑ c : Fin 6, if lo ≤ c.1 ∧ c.1 < hi then tmat H t i r c * b c else 0

/-- outputs of the Loess smoother -/
structure Loess where
  /-- number of values -/
  N : ℕ
  /-- smoothed series -/
  data : ℕ → ℝ
  /-- instantaneous trend -/
  trend : ℕ → ℝ
  /-- error of the trend -/
  error : ℕ → ℝ
  /-- seasonal component -/
  seasonal : ℕ → ℝ
  /-- annual component -/
  annual : ℕ → ℝ
  /-- annual amplitude -/
  annamp : ℕ → ℝ
  /-- annual phase in degrees -/
  annphase : ℕ → ℝ
  /-- semi-annual component -/
  semiann : ℕ → ℝ
  /-- semi-annual amplitude -/
  semiamp : ℕ → ℝ
  /-- semi-annual phase in degrees -/
  semiphase : ℕ → ℝ
  /-- data minus smoothed and seasonal -/
  noise : ℕ → ℝ
  /-- times -/
  time : ℕ → ℝ
  /-- data without the half windows at the ends -/
  reduce : ℕ → ℝ

/-- the middle row of a window -/
def mid (H : ℕ) : Fin (2 * H + 1) := ⟨H, by omega⟩

/-- error of the trend of window `i` (smooth.py:287-318) -/
noncomputable def trendErr (erf : ℝ → ℝ) (tppf : ℝ → ℝ → ℝ) (H : ℕ) (t d : ℕ → ℝ) (DATA_ERR : ℝ) (o : Opts) (i : ℕ) : ℝ :=
  let X := tmat H t i
  let Hinv := (Xᵀ * X)⁻¹
  if DATA_ERR ≠ 0 then Real.sqrt (knownVar X Hinv DATA_ERR 1)
  else
    let mse := (∑ r, (d (i + r.1) - ∑ c, X r c * wbeta H t d i c) ^ 2) / ((2 * H + 1 : ℝ) - 6)
    tppf (1 - alphaOf erf o / 2) ((2 * H + 1 : ℝ) - 6) * Real.sqrt (mse * Hinv 1 1)

open Classical in
/-- `WEIGHT = 0`: the unweighted Loess smoother (smooth.py:252-344).  `none`: too few data for `np.zeros`, or a
window whose normal matrix is singular (`np.linalg.inv` raises). -/
noncomputable def smoothLoess (erf : ℝ → ℝ) (tppf : ℝ → ℝ → ℝ) (n H : ℕ) (t d : ℕ → ℝ) (DATA_ERR : ℝ) (o : Opts) :
    Option Loess :=
  if n = 1 ∨ n < 2 * H then none
  else if ∃ i < n - 2 * H, inv ((tmat H t i)ᵀ * tmat H t i) = none then none
  else
    let b := wbeta H t d
    let sm := fun i => part H t i (b i) 0 2 (mid H)
    let se := fun i => part H t i (b i) 2 6 (mid H)
    some
      { N := n - 2 * H
        data := sm
        trend := fun i => b i 1
        error := trendErr erf tppf H t d DATA_ERR o
        seasonal := se
        annual := fun i => part H t i (b i) 2 4 (mid H)
        annamp := fun i => (amplitude (b i 2) (b i 3)).1
        annphase := fun i => Complex.arg ⟨b i 2, b i 3⟩ * 180 / Real.pi
        semiann := fun i => part H t i (b i) 4 6 (mid H)
        semiamp := fun i => (amplitude (b i 4) (b i 5)).1
        semiphase := fun i => Complex.arg ⟨b i 4, b i 5⟩ * 180 / Real.pi
        noise := fun i => d (i + H) - sm i - se i
        time := fun i => t (i + H)
        reduce := fun i => d (i + H) }

/-- window weights (smooth.py:181-192): linear for `WEIGHT = 1`, Gaussian with deviation 2 for `WEIGHT = 2` -/
noncomputable def windowWeight (WEIGHT H : ℕ) (r : ℕ) : ℝ :=
  if WEIGHT = 1 then (if r ≤ H then (r : ℝ) + 1 else 2 * H + 1 - r)
  else Real.exp (-((r : ℝ) - H) ^ 2 / (2 * 2 ^ 2)) / (2 * Real.sqrt (2 * Real.pi))

/-- `a[ran] += v` for every window (smooth.py:202-236) -/
noncomputable def accumulate (n H : ℕ) (v : ℕ → Fin (2 * H + 1) → ℝ) : ℕ → ℝ :=
  (List.range (n - 2 * H)).foldl (fun a i => fun p =>
    if h : i ≤ p ∧ p < i + (2 * H + 1) then a p + v i ⟨p - i, by omega⟩ else a p) (fun _ => 0)

/-- `WEIGHT` 1 or 2: the weighted smoother for all dates (smooth.py:170-251); `trend`, `error` and `reduce` are not
returned there: 0, 0 and the data stand in. -/
noncomputable def smoothWeighted (n H : ℕ) (t d : ℕ → ℝ) (WEIGHT : ℕ) : Option Loess :=
  if n = 1 then none
  else
    let b := wbeta H t d
    let w := windowWeight WEIGHT H
    let weight := accumulate n H fun _ r => w r
    let mean := fun lo hi p => accumulate n H (fun i r => w r * part H t i (b i) lo hi r) p / weight p
    let const := fun (f : ℕ → ℝ) p => accumulate n H (fun i r => w r * f i) p / weight p
    some
      { N := n
        data := mean 0 2
        trend := fun _ => 0
        error := fun _ => 0
        seasonal := mean 2 6
        annual := mean 2 4
        annamp := const fun i => (amplitude (b i 2) (b i 3)).1
        annphase := const fun i => Complex.arg ⟨b i 2, b i 3⟩ * 180 / Real.pi
        semiann := mean 4 6
        semiamp := const fun i => (amplitude (b i 4) (b i 5)).1
        semiphase := const fun i => Complex.arg ⟨b i 4, b i 5⟩ * 180 / Real.pi
        noise := fun p => d p - mean 0 2 p - mean 2 6 p
        time := t
        reduce := d }

/-! ## Savitzky-Golay -/

/-- `np.convolve(a, v, mode='valid')[k]` for a kernel `a` of length `na` and a longer signal `v`
(savitzky_golay.py:135, 140-141) -/
noncomputable def convolveValid (na : ℕ) (a v : ℕ → ℝ) (k : ℕ) : ℝ := ∑ j ∈ range na, a j * v (k + (na - 1) - j)

/-- Vandermonde matrix about the central time (savitzky_golay.py:125-127) -/
noncomputable def vander (h ORDER : ℕ) (t : ℕ → ℝ) (i : ℕ) : Matrix (Fin (2 * h + 1)) (Fin (ORDER + 1)) ℝ :=
  fun r c => (t (i + r) - t (i + h)) ^ c.1

/-- the window padded at both ends (savitzky_golay.py:130-133): `firstvals`, `yran`, `lastvals` -/
noncomputable def padded (h : ℕ) (y : ℕ → ℝ) (i : ℕ) : ℕ → ℝ := fun p =>
  if p < h then y i - |y (i + (h - p)) - y i|
  else if p < h + (2 * h + 1) then y (i + (p - h))
  else y (i + 2 * h) + |y (i + (2 * h - 1 - (p - (3 * h + 1)))) - y (i + 2 * h)|

/-- window length (savitzky_golay.py:102-108): the default, and the two `ValueError`s -/
def sgWindow (WINDOW : Option ℤ) (ORDER : ℕ) : Option ℕ :=
  let w : ℤ := WINDOW.getD ((ORDER : ℤ) - (ORDER % 2 : ℕ) + 3)
  if w % 2 ≠ 1 ∨ w < 1 then none
  else if w < ORDER + 2 then none
  else some w.toNat

/-- the filter coefficients of window `i`: row `DERIV` of the pseudoinverse times `RATE**DERIV*DERIV!`
(savitzky_golay.py:125-129) -/
noncomputable def sgCoeff (h ORDER DERIV : ℕ) (RATE : ℝ) (t : ℕ → ℝ) (i j : ℕ) : ℝ :=
  if hj : j < 2 * h + 1 ∧ DERIV < ORDER + 1 then
    pinv (vander h ORDER t i) ⟨DERIV, hj.2⟩ ⟨j, hj.1⟩ * RATE ^ DERIV * (DERIV.factorial : ℝ) else 0

/-- `savitzky_golay(t_in, y_in, WINDOW, ORDER, DERIV, RATE, DATA_ERR)` (savitzky_golay.py:65-143): number of values,
data, errors and times.  `none` also for fewer samples than the two half windows (`np.zeros` of a negative
size) and, when there is a window, for `DERIV > ORDER` (row index out of range).  `np.mat` is taken to exist
(it was removed in NumPy 2). -/
noncomputable def savitzkyGolay (n : ℕ) (t y : ℕ → ℝ) (WINDOW : Option ℤ) (ORDER DERIV : ℕ) (RATE DATA_ERR : ℝ) :
    Option (ℕ × (ℕ → ℝ) × (ℕ → ℝ) × (ℕ → ℝ)) :=
  match sgWindow WINDOW ORDER with
  | none => none
  | some w =>
    let h := (w - 1) / 2
    if n = 1 ∨ n < 2 * h ∨ (2 * h < n ∧ ORDER < DERIV) then none
    else
      let m : ℕ → ℕ → ℝ := sgCoeff h ORDER DERIV RATE t
      let rev : (ℕ → ℝ) → ℕ → ℝ := fun a j => a (2 * h - j)
      some (n - 2 * h,
        fun i => convolveValid (2 * h + 1) (rev (m i)) (padded h y i) h,
        fun i => if DATA_ERR ≠ 0 then
            Real.sqrt (convolveValid (2 * h + 1) (fun j => rev (m i) j ^ 2) (fun _ => DATA_ERR ^ 2) h) else 0,
        fun i => t (i + h))

/-! ## Lomb-Scargle -/

/-- which range is given (lomb_scargle.py:115-123); the two values must be given as a non-empty list -/
inductive Range where
  /-- angular frequencies -/
  | omega (a b : ℝ)
  /-- frequencies -/
  | frequency (a b : ℝ)
  /-- periods -/
  | period (a b : ℝ)

/-- the angular frequency range (lomb_scargle.py:115-123) -/
noncomputable def omegaOf : Range → ℝ × ℝ
  | .omega a b => (a, b)
  | .frequency a b => (a / (2 * Real.pi), b / (2 * Real.pi))
  | .period a b => (2 * Real.pi / a, 2 * Real.pi / b)

/-- `np.linspace(a, b, N)` (lomb_scargle.py:129) -/
noncomputable def linspace (a b : ℝ) (N : ℕ) (i : ℕ) : ℝ := if N = 1 then a else a + i * ((b - a) / (N - 1))

/-- `np.round` as nearest integer, ties to even (lomb_scargle.py:135) -/
noncomputable def roundEven (x : ℝ) : ℤ :=
  if x - ⌊x⌋ < 1 / 2 then ⌊x⌋
  else if 1 / 2 < x - ⌊x⌋ then ⌊x⌋ + 1
  else if ⌊x⌋ % 2 = 0 then ⌊x⌋ else ⌊x⌋ + 1

/-- number of independent frequencies (lomb_scargle.py:135-137) -/
noncomputable def independentFreq (nmax : ℕ) : ℕ :=
  (max (roundEven (-6.362 + 1.193 * nmax + 0.00098 * (nmax : ℝ) ^ 2)) 1).toNat

/-- `np.argmax`: the first index of the largest value (lomb_scargle.py:158) -/
noncomputable def argmax (N : ℕ) (f : ℕ → ℝ) : ℕ := (List.range N).foldl (fun k i => if f k < f i then i else k) 0

/-- outputs of `lomb_scargle` -/
structure Periodogram where
  /-- spectral power -/
  power : ℕ → ℝ
  /-- probability of each frequency -/
  probability : ℕ → ℝ
  /-- frequencies -/
  frequency : ℕ → ℝ
  /-- periods -/
  period : ℕ → ℝ
  /-- power at the probability levels -/
  contour : ℝ → ℝ
  /-- Nyquist frequency -/
  nyquist : ℝ
  /-- period of largest power -/
  peak : ℝ
  /-- power-weighted mean period -/
  centroid : ℝ

/-- `lomb_scargle(t_in, d_in, ...)` (lomb_scargle.py:59-165) for finite data; `psd` is `scipy.signal.lombscargle` as a
function of times, normalised data and angular frequency.  The standard deviation of the data must not be zero
for the quotient to mean anything. -/
noncomputable def lombScargle (psd : (ℕ → ℝ) → (ℕ → ℝ) → ℝ → ℝ) (n : ℕ) (t d : ℕ → ℝ) (rg : Range) (N : ℕ) : Periodogram :=
  let om := omegaOf rg
  let ang := linspace om.1 om.2 N
  let mean := (∑ i ∈ range n, d i) / n
  let std := Real.sqrt ((∑ i ∈ range n, (d i - mean) ^ 2) / n)
  let P := fun i => psd (fun j => t j - t 0) (fun j => (d j - mean) / std) (ang i)
  let M := independentFreq n
  let period := fun i => 2 * Real.pi / ang i
  { power := P
    probability := fun i => 1 - (1 - Real.exp (-P i)) ^ M
    frequency := fun i => ang i / (2 * Real.pi)
    period := period
    contour := fun p => -Real.log (1 - (1 - p) ^ ((1 : ℝ) / M))
    nyquist := 1 / (2 * ((∑ i ∈ range (n - 1), (t (i + 1) - t i)) / ((n - 1 : ℕ) : ℝ)))
    peak := period (argmax N P)
    centroid := (∑ i ∈ range N, period i * P i) / ∑ i ∈ range N, P i }

end Verif.TimeSeries
