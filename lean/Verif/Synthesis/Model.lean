import Verif.Legendre.Model
import Mathlib.Analysis.SpecialFunctions.Trigonometric.Basic
import Mathlib.Analysis.SpecialFunctions.Log.Basic
import Mathlib.Analysis.SpecialFunctions.Complex.Circle

/-!
# Model of `clenshaw_summation.py`, `harmonic_summation.py`, `gauss_weights.py` and
`harmonic_gradients.geostrophic_currents`

One point (one latitude and one longitude) at a time: the code treats points independently.  Exact
real arithmetic.  Coefficient arrays are functions of degree and order; they are assumed to have at
least the rows and columns the code reads (otherwise numpy raises).
-/
namespace Verif.Synthesis
open Verif.Legendre

/-! ## clenshaw_summation.py -/

/-- `a_lm` in the loops of `clenshaw_s_m` (clenshaw_summation.py:246, 262) -/
noncomputable def clA (t : ℝ) (m l : ℕ) : ℝ :=
  if m = 0 then Real.sqrt ((2 * (l : ℝ) + 1) * (2 * l + 3) / (((l : ℝ) + 1) * (l + 1))) * t
  else Real.sqrt ((2 * (l : ℝ) + 1) * (2 * l + 3) / (((l : ℝ) + 1 - m) * (l + 1 + m))) * t

/-- `b_lm` (clenshaw_summation.py:247, 263) -/
noncomputable def clB (m l : ℕ) : ℝ :=
  if m = 0 then Real.sqrt ((2 * (l : ℝ) + 5) * (l + 1) * (l + 1) / (((l : ℝ) + 2) * (l + 2) * (2 * l + 1)))
  else Real.sqrt ((2 * (l : ℝ) + 5) * (l + m + 1) * (l - m + 1) /
    (((l : ℝ) + 2 - m) * (l + 2 + m) * (2 * l + 1)))

/-- `a_lm` at degree `lmax` before the loop (clenshaw_summation.py:235, 241, 258) -/
noncomputable def clATop (t : ℝ) (m lmax : ℕ) : ℝ :=
  if m = 0 ∧ m + 1 < lmax then Real.sqrt ((2 * (lmax : ℝ) - 1) * (2 * lmax + 1) / ((lmax : ℝ) * lmax)) * t
  else Real.sqrt ((2 * (lmax : ℝ) - 1) * (2 * lmax + 1) / (((lmax : ℝ) - m) * (lmax + m))) * t

/-- body of the loop over degrees: state is (`pre_1`, `pre_2`) (clenshaw_summation.py:244-253,
260-266) -/
noncomputable def clStep (t : ℝ) (m : ℕ) (g : ℕ → ℝ) (s : ℝ × ℝ) (l : ℕ) : ℝ × ℝ :=
  (clA t m l * s.1 - clB m l * s.2 + g l, s.1)

/-- the degree loop, `l` from `lmax-2` down to `m`; `g l` is `f[l]*clm[l,m]` -/
noncomputable def clLoop (t : ℝ) (m lmax : ℕ) (g : ℕ → ℝ) : ℝ :=
  ((List.range (lmax - 1 - m)).foldl (fun s i => clStep t m g s (lmax - 2 - i))
    (clATop t m lmax * g lmax + g (lmax - 1), g lmax)).1

/-- `clenshaw_s_m` (clenshaw_summation.py:190-269): the cosine and sine value for order `m` -/
noncomputable def clenshawSm (scale t : ℝ) (f : ℕ → ℝ) (m : ℕ) (clm1 slm1 : ℕ → ℕ → ℝ) (lmax : ℕ) :
    ℝ × ℝ :=
  let clm : ℕ → ℕ → ℝ := fun l m => scale * clm1 l m
  let slm : ℕ → ℕ → ℝ := fun l m => scale * slm1 l m
  let r : ℝ × ℝ :=
    if m = lmax then (f lmax * clm lmax lmax, f lmax * slm lmax lmax)
    else if m + 1 = lmax then
      (clATop t m lmax * f lmax * clm lmax (lmax - 1) + f (lmax - 1) * clm (lmax - 1) (lmax - 1),
       clATop t m lmax * f lmax * slm lmax (lmax - 1) + f (lmax - 1) * slm (lmax - 1) (lmax - 1))
    else if m = 0 then (clLoop t m lmax fun l => f l * clm l m, 0)
    else (clLoop t m lmax (fun l => f l * clm l m), clLoop t m lmax (fun l => f l * slm l m))
  (r.1 / scale, r.2 / scale)

/-- arrays of `cos(m phi)` and `sin(m phi)` and the running sum -/
structure CS where
  c : ℕ → ℝ
  s : ℕ → ℝ
  sm : ℝ

/-- body of the loop over orders (clenshaw_summation.py:177-182) -/
noncomputable def csStep (u phi : ℝ) (smc : ℕ → ℝ × ℝ) (s : CS) (m : ℕ) : CS :=
  let c := set1 s.c m (2 * Real.cos phi * s.c (m + 1) - s.c (m + 2))
  let d := set1 s.s m (2 * Real.cos phi * s.s (m + 1) - s.s (m + 2))
  ⟨c, d, Real.sqrt ((2 * m + 3) / (2 * m + 2)) * u * s.sm + (smc m).1 * c m + (smc m).2 * d m⟩

/-- `clenshaw_summation` at one point (clenshaw_summation.py:126-186): `f` is `dfactor*wl`, latitude
and longitude in degrees -/
noncomputable def clenshaw (scale : ℝ) (f : ℕ → ℝ) (clm slm : ℕ → ℕ → ℝ) (LMAX : ℕ) (lon lat : ℝ) : ℝ :=
  let th := (90 - lat) * Real.pi / 180
  let phi := lon * Real.pi / 180
  let t := Real.cos th
  let u := Real.sin th
  let smc : ℕ → ℝ × ℝ := fun m => clenshawSm scale t f m clm slm LMAX
  let c0 := set1 (set1 (fun _ => 0) (LMAX + 1) (Real.cos ((LMAX + 1 : ℕ) * phi))) LMAX (Real.cos (LMAX * phi))
  let s0 := set1 (set1 (fun _ => 0) (LMAX + 1) (Real.sin ((LMAX + 1 : ℕ) * phi))) LMAX (Real.sin (LMAX * phi))
  let init : CS := ⟨c0, s0, (smc LMAX).1 * c0 LMAX + (smc LMAX).2 * s0 LMAX⟩
  let r := (List.range (LMAX - 1)).foldl (fun s i => csStep u phi smc s (LMAX - 1 - i)) init
  Real.sqrt 3 * u * r.sm + (smc 0).1

/-! ## harmonic_summation.py -/

/-- `LMAX = np.shape(clm1)[0]-1` when it is zero (harmonic_summation.py:82-83, 155-156, 244-245) -/
def effLmax (rows LMAX : ℕ) : ℕ := if LMAX = 0 then rows - 1 else LMAX

/-- the coefficients kept (harmonic_summation.py:101-104) -/
noncomputable def windowed (LMIN LMAX : ℕ) (c : ℕ → ℕ → ℝ) (l m : ℕ) : ℝ :=
  if LMIN ≤ l ∧ l ≤ LMAX then c l m else 0

/-- `d_cos[m]`: sum over degrees (harmonic_summation.py:108-111) -/
noncomputable def dSum (LMAX : ℕ) (PLM c : ℕ → ℕ → ℝ) (m : ℕ) : ℝ :=
  ((List.range (LMAX + 1)).map fun l : ℕ => PLM l m * c l m).sum

/-- `harmonic_summation` at one point (harmonic_summation.py:88-122), with the Legendre functions of
the latitude of the point given; `phi` in radians -/
noncomputable def harmSumCore (LMIN LMAX MMAX : ℕ) (clm1 slm1 PLM : ℕ → ℕ → ℝ) (phi : ℝ) : ℝ :=
  ((List.range (MMAX + 1)).map fun m : ℕ =>
      Real.cos (m * phi) * dSum LMAX PLM (windowed LMIN LMAX clm1) m).sum +
    ((List.range (MMAX + 1)).map fun m : ℕ =>
      Real.sin (m * phi) * dSum LMAX PLM (windowed LMIN LMAX slm1) m).sum

/-- the Legendre functions used: those given, or `plm_holmes(LMAX, cos(th))`
(harmonic_summation.py:95-96) -/
noncomputable def usePLM (eps scalef : ℝ) (LMAX : ℕ) (lat : ℝ) (PLM : Option (ℕ → ℕ → ℝ)) :
    Option (ℕ → ℕ → ℝ) :=
  match PLM with
  | some p => some p
  | none => (holmes eps scalef LMAX (Real.cos ((90 - lat) * Real.pi / 180))).map (·.p)

/-- `harmonic_summation(clm1, slm1, lon, lat)` at one point (harmonic_summation.py:51-122); `none`
when the Legendre routine raises -/
noncomputable def harmonicSummation (eps scalef : ℝ) (rows LMIN LMAX : ℕ) (MMAX : Option ℕ)
    (PLM : Option (ℕ → ℕ → ℝ)) (clm1 slm1 : ℕ → ℕ → ℝ) (lon lat : ℝ) : Option ℝ :=
  let L := effLmax rows LMAX
  (usePLM eps scalef L lat PLM).map fun p =>
    harmSumCore LMIN L (MMAX.getD L) clm1 slm1 p (lon * Real.pi / 180)

/-- `np.fft.ifft(x, n)[j]`: the input is cut or zero-padded to length `n`
(numpy definition, used at harmonic_summation.py:190) -/
noncomputable def ifft (x : ℕ → ℂ) (len n j : ℕ) : ℂ :=
  (1 / n : ℂ) * ((List.range n).map fun m : ℕ =>
    (if m < len then x m else 0) * Complex.exp (2 * Real.pi * Complex.I * (m * j / n : ℝ))).sum

/-- `harmonic_transform` at one latitude (harmonic_summation.py:174-195): the value at longitude index
`j` of `phimax`.  The orders of `PLM` must number `MMAX+1`. -/
noncomputable def harmTransform (LMIN LMAX MMAX phimax : ℕ) (clm1 slm1 PLM : ℕ → ℕ → ℝ) (j : ℕ) : ℝ :=
  let Ylms : ℕ → ℕ → ℂ := fun l m =>
    if LMIN ≤ l ∧ l ≤ LMAX then (clm1 l m : ℂ) - slm1 l m * Complex.I else 0
  let delta : ℕ → ℂ := fun m => ((List.range (LMAX + 1)).map fun l : ℕ => (PLM l m : ℂ) * Ylms l m).sum / 2
  let row : ℕ → ℝ := fun j => 2 * ((phimax - 1 : ℕ) : ℝ) * (ifft delta (MMAX + 1) (phimax - 1) j).re
  if j = phimax - 1 then row 0 else row j

/-- `stokes_summation` at one point (harmonic_summation.py:243-283): `wl` are the smoothing weights
and `dfactor` the unit factors -/
noncomputable def stokesSummation (eps scalef : ℝ) (rows LMIN LMAX : ℕ) (MMAX : Option ℕ)
    (PLM : Option (ℕ → ℕ → ℝ)) (wl dfactor : ℕ → ℝ) (clm1 slm1 : ℕ → ℕ → ℝ) (lon lat : ℝ) : Option ℝ :=
  let L := effLmax rows LMAX
  harmonicSummation eps scalef (L + 1) LMIN L (some (MMAX.getD L)) PLM
    (fun l m => wl l * dfactor l * clm1 l m) (fun l m => wl l * dfactor l * slm1 l m) lon lat

/-! ## gauss_weights.py -/

/-- the `while` loop (gauss_weights.py:86-101) -/
noncomputable def gLoop (b cutoff : ℝ) (LMAX l : ℕ) (valid : Bool) (wl : ℕ → ℝ) : ℕ → ℝ :=
  if valid = true ∧ l ≤ LMAX then
    let wl := set1 wl l ((1 - 2 * l) / b * wl (l - 1) + wl (l - 2))
    if wl l < cutoff then
      gLoop b cutoff LMAX (l + 1) false (fun k => if l ≤ k ∧ k ≤ LMAX then cutoff else wl k)
    else gLoop b cutoff LMAX (l + 1) valid wl
  else wl
termination_by LMAX + 1 - l

/-- `gauss_weights(hw, LMAX, CUTOFF)` (gauss_weights.py:52-103): weights of degrees `0..LMAX`; `none`
for `LMAX = 0` and a radius above the cutoff, where `wl[1]` raises `IndexError` -/
noncomputable def gaussWeights (hw : ℝ) (LMAX : ℕ) (cutoff : ℝ) : Option (ℕ → ℝ) :=
  if hw < cutoff then some fun l => if l ≤ LMAX then 1 / (2 * Real.pi) else 0
  else if LMAX = 0 then none
  else
    let b := Real.log 2 / (1 - Real.cos (hw / 6371))
    let wl := set1 (fun _ => 0) 0 (1 / (2 * Real.pi))
    let wl := set1 wl 1 (wl 0 * ((1 + Real.exp (-2 * b)) / (1 - Real.exp (-2 * b)) - 1 / b))
    some (gLoop b cutoff LMAX 2 true wl)

/-! ## harmonic_gradients.geostrophic_currents -/

/-- harmonics of the zonal flow (harmonic_gradients.py:234-242) for one coefficient array -/
noncomputable def zonalFlow (LMAX MMAX : ℕ) (coeff : ℝ) (wl kl : ℕ → ℝ) (c : ℕ → ℕ → ℝ) (l m : ℕ) : ℝ :=
  if 1 ≤ l ∧ l < LMAX ∧ m ≤ min l MMAX then
    coeff * wl l *
      (((l : ℝ) - 1) / (1 + kl (l - 1)) *
          Real.sqrt (((l : ℝ) ^ 2 - (m : ℝ) ^ 2) * (2 * l - 1) / (2 * l + 1)) * c (l - 1) m -
        ((l : ℝ) + 2) / (1 + kl (l + 1)) *
          Real.sqrt ((((l : ℝ) + 1) ^ 2 - (m : ℝ) ^ 2) * (2 * l + 3) / (2 * l + 1)) * c (l + 1) m)
  else 0

/-- harmonics of the meridional flow (harmonic_gradients.py:244-249): `sgn` is -1 for the cosine
coefficients (made from sines), 1 for the sine coefficients (made from cosines) -/
noncomputable def meridFlow (LMAX MMAX : ℕ) (coeff sgn : ℝ) (wl kl : ℕ → ℝ) (c : ℕ → ℕ → ℝ) (l m : ℕ) : ℝ :=
  if l ≤ LMAX ∧ m ≤ min l MMAX then sgn * coeff * wl l * (m * (2 * l + 1) / (1 + kl l)) * c l m else 0

/-- the attempted truncation below `LMIN` (harmonic_gradients.py:254-255): each kept row is assigned
to itself -/
noncomputable def selfAssign (LMIN LMAX : ℕ) (c : ℕ → ℕ → ℝ) (l m : ℕ) : ℝ :=
  if LMIN ≤ l ∧ l ≤ LMAX then c l m else c l m

/-- `geostrophic_currents` at one point, both components (harmonic_gradients.py:159-282) with the
Legendre functions given; `coeff` is the physical constant of line 224, `th` and `phi` in radians -/
noncomputable def currents (LMIN LMAX MMAX : ℕ) (coeff : ℝ) (wl kl : ℕ → ℝ)
    (clm1 slm1 PLM : ℕ → ℕ → ℝ) (th phi : ℝ) : ℝ × ℝ :=
  let temp := 1 / (Real.cos th * Real.sin th)
  let field : (ℕ → ℕ → ℝ) → (ℕ → ℕ → ℝ) → ℝ := fun c s =>
    ((List.range (MMAX + 1)).map fun m : ℕ =>
        Real.cos (m * phi) * (temp * dSum LMAX PLM (selfAssign LMIN LMAX c) m)).sum +
      ((List.range (MMAX + 1)).map fun m : ℕ =>
        Real.sin (m * phi) * (temp * dSum LMAX PLM (selfAssign LMIN LMAX s) m)).sum
  (field (zonalFlow LMAX MMAX coeff wl kl clm1) (zonalFlow LMAX MMAX coeff wl kl slm1),
   field (meridFlow LMAX MMAX coeff (-1) wl kl slm1) (meridFlow LMAX MMAX coeff 1 wl kl clm1))

end Verif.Synthesis
