import Verif.Analysis.Model

/-!
# Model of `sea_level_equation.py`

Exact real arithmetic.  The harmonic transform is the model of `gen_harmonics`
(`Verif.Analysis.genHarmonics`); the Clenshaw summation inside the loop is the code of
`clenshaw_summation.py` with the degree factor left out, so it is modelled by
`Verif.Synthesis.clenshaw` with degree factor 1.  Density of water is 1, as in the code.  Load and Love
number arrays are assumed to have the degrees that are read.
-/
namespace Verif.SeaLevel
open Verif.Legendre Verif.Synthesis Verif.Units Verif.Analysis

/-- the argument `BODY_TIDE_LOVE` (sea_level_equation.py:157-162) -/
inductive BodyArg where
  | custom (k2b h2b : ℝ)
  | code (n : ℤ)

/-- the argument `FLUID_LOVE` (sea_level_equation.py:163-170) -/
inductive FluidArg where
  | custom (klf : ℝ)
  | code (n : ℤ)

/-- `k2b,h2b` (sea_level_equation.py:211-222); `none`: the variables stay unbound -/
noncomputable def bodyTide : BodyArg → Option (ℝ × ℝ)
  | .custom k h => some (k, h)
  | .code n =>
    if n = 0 then some (0.298, 0.604)
    else if n = 1 then some (0.3055, 0.6149)
    else none

/-- `klf` (sea_level_equation.py:224-266), the value last assigned; `none`: the variable stays
unbound -/
noncomputable def fluid : FluidArg → Option ℝ
  | .custom k => some k
  | .code n =>
    if n = 0 then some (0.00328475 / 0.00348118)
    else if n = 1 then
      some (3 * 3.98004418e14 * (1 / 305.51) * 0.33068 / ((6.371e6 : ℝ) ^ 3 * (7.292115e-5) ^ 2))
    else if n = 2 then
      some (2 * (1 / 298.257223563) * 9.80665 / ((7.292115e-5 : ℝ) ^ 2 * 6.371e6) - 1)
    else if n = 3 then some 0.942
    else none

/-- the inputs that stay fixed during the iteration -/
structure Conf where
  E : Earth
  nphi : ℕ
  nth : ℕ
  glon : ℕ → ℝ
  glat : ℕ → ℝ
  land : ℕ → ℕ → ℝ
  LMAX : ℕ
  hl : ℕ → ℝ
  kl : ℕ → ℝ
  POLAR : Bool
  k2b : ℝ
  h2b : ℝ
  klf : ℝ
  SCALE : ℝ
  PLM : ℕ → ℕ → ℕ → ℝ

variable (c : Conf)

/-- `ocean_function = 1.0 - land_function` (sea_level_equation.py:196) -/
noncomputable def ocean (i j : ℕ) : ℝ := 1 - c.land i j

/-- `coefpmf` (sea_level_equation.py:284) -/
noncomputable def coefpmf : ℝ := (1 + c.k2b - c.h2b) * (1 + c.kl 2) / (c.klf - c.k2b)

/-- `coefh[l,m]` (sea_level_equation.py:270-286) -/
noncomputable def coefh (l m : ℕ) : ℝ :=
  if l ≤ c.LMAX ∧ m ≤ l then
    let base := 3 * 1 * (1 + c.kl l - c.hl l) / rho_e c.E / (2 * l + 1)
    if l = 2 ∧ c.POLAR = true ∧ m = 1 then base + 3 * 1 * coefpmf c / rho_e c.E / (2 * l + 1) else base
  else 0

/-- `coefp[l,m]` (sea_level_equation.py:271-287) -/
noncomputable def coefp (l m : ℕ) : ℝ :=
  if l ≤ c.LMAX ∧ m ≤ l then
    let base := (1 + c.kl l - c.hl l) / (c.kl l + 1)
    if l = 2 ∧ c.POLAR = true ∧ m = 1 then base + coefpmf c / (c.kl l + 1) else base
  else 0

/-- `gen_harmonics(field, glon, glat, LMAX=LMAX, PLM=PLM)` (sea_level_equation.py:302, 362).  The
first two arguments of the model only matter when no `PLM` is given, which never happens here. -/
noncomputable def transform (field : ℕ → ℕ → ℝ) : Option CSlm :=
  genHarmonics 0 1 ⟨c.nphi, c.nth, field⟩ c.nphi c.nth c.glon c.glat c.LMAX none (some c.PLM)

/-- `tmass` (sea_level_equation.py:300) -/
noncomputable def tmass (load : CSlm) : ℝ :=
  4 * Real.pi * rad_e c.E ^ 3 * rho_e c.E * load.clm 0 0 / 3

/-- `mod` summed over the lower triangle (sea_level_equation.py:297, 385-387) -/
noncomputable def modSum (y : CSlm) : ℝ :=
  ((List.range (c.LMAX + 1)).map fun l : ℕ =>
    ((List.range (l + 1)).map fun m : ℕ => Real.sqrt (y.clm l m ^ 2 + y.slm l m ^ 2)).sum).sum

/-- `eps > eps_max` for `eps = |sum(mod2 - mod1)/sum(mod1)|` (sea_level_equation.py:323, 387): a zero
denominator gives infinity (true) or NaN (false) -/
noncomputable def notConverged (old new : CSlm) : Prop :=
  if modSum c old = 0 then modSum c new - modSum c old ≠ 0
  else 1e-4 < |(modSum c new - modSum c old) / modSum c old|

/-- `scale` of a harmonics object (harmonics.py:scale) as used here -/
noncomputable def scaleY (a : ℝ) (y : CSlm) : CSlm := ⟨fun l m => a * y.clm l m, fun l m => a * y.slm l m⟩

/-- `Ylms.add(other)` (harmonics.py:add) as used here, equal dimensions -/
noncomputable def addY (x y : CSlm) : CSlm :=
  ⟨fun l m => x.clm l m + y.clm l m, fun l m => x.slm l m + y.slm l m⟩

/-- the field before the mass correction (sea_level_equation.py:324-359): the Clenshaw sum where the
ocean function is not zero, zero elsewhere -/
noncomputable def rawField (load height : CSlm) (i j : ℕ) : ℝ :=
  if ocean c i j ≠ 0 then
    clenshaw c.SCALE (fun _ => 1)
      (fun l m => coefh c l m * height.clm l m + rad_e c.E * coefp c l m * load.clm l m)
      (fun l m => coefh c l m * height.slm l m + rad_e c.E * coefp c l m * load.slm l m)
      c.LMAX (c.glon i) (c.glat j)
  else 0

/-- state between passes: the field of the last pass, the harmonics `height_Ylms`, and whether
`eps > eps_max` -/
structure Pass where
  sea : ℕ → ℕ → ℝ
  height : CSlm
  more : Prop

/-- one pass of the `while` loop (sea_level_equation.py:324-391), given the harmonics of the ocean
function -/
noncomputable def pass (oceanY load height : CSlm) : Option Pass :=
  let raw := rawField c load height
  (transform c raw).map fun Y =>
    let rmass := 4 * Real.pi * Y.clm 0 0
    let area := 4 * Real.pi * oceanY.clm 0 0
    let h := (-tmass c load / 1 / rad_e c.E ^ 2 - rmass) / area
    let Y' := addY Y (scaleY h oceanY)
    { sea := fun i j => raw i j + h * ocean c i j
      height := Y'
      more := notConverged c height Y' }

open Classical in
/-- the remaining passes of the loop: `n` is `ITERATIONS - n_iter + 1`; returns the last pass and the
number of passes made (sea_level_equation.py:321-391) -/
noncomputable def loop (oceanY load : CSlm) : ℕ → Pass → ℕ → Option (Pass × ℕ)
  | 0, s, k => some (s, k)
  | n + 1, s, k =>
    if s.more then
      match pass c oceanY load s.height with
      | none => none
      | some s' => loop oceanY load n s' (k + 1)
    else some (s, k)

/-- the solver up to the end of the loop (sea_level_equation.py:299-391).  With no pass at all the
field is unbound: the pass count 0 marks that case. -/
noncomputable def solve (load : CSlm) (ITERATIONS : ℤ) : Option (Pass × ℕ) :=
  match transform c (ocean c) with
  | none => none
  | some oceanY =>
    let h0 := -tmass c load / 1 / rad_e c.E ^ 2 / (4 * Real.pi * oceanY.clm 0 0)
    loop c oceanY load ITERATIONS.toNat ⟨fun _ _ => 0, scaleY h0 oceanY, True⟩ 0

/-- the returned field with the fill value (sea_level_equation.py:399-405); `none` is the
`UnboundLocalError` of a loop that never ran -/
noncomputable def finish (FILL : ℝ) (r : Pass × ℕ) : Option (ℕ → ℕ → ℝ) :=
  if r.2 = 0 then none
  else some fun i j => if FILL ≠ 0 ∧ c.land i j ≠ 0 then FILL else r.1.sea i j

/-- arguments of `sea_level_equation` (sea_level_equation.py:130-132) -/
structure Args where
  nphi : ℕ
  nth : ℕ
  glon : ℕ → ℝ
  glat : ℕ → ℝ
  land : ℕ → ℕ → ℝ
  LMAX : ℕ
  hl : ℕ → ℝ
  kl : ℕ → ℝ
  POLAR : Bool
  BODY : BodyArg
  FLUID : FluidArg
  ITERATIONS : ℤ
  PLM : Option (ℕ → ℕ → ℕ → ℝ)
  FILL : ℝ
  SCALE : ℝ

/-- Love numbers of the polar motion feedback: read only for `POLAR` and `LMAX >= 2`
(sea_level_equation.py:279-287); `none` is the `UnboundLocalError` -/
noncomputable def polarLove (a : Args) : Option (ℝ × ℝ × ℝ) :=
  if a.POLAR = true ∧ 2 ≤ a.LMAX then
    match bodyTide a.BODY, fluid a.FLUID with
    | some (k, h), some f => some (k, h, f)
    | _, _ => none
  else some (0, 0, 0)

/-- a division by zero that turns the whole field into NaN or infinity (sea_level_equation.py:280-287,
304, 311, 369) -/
def undefined (c : Conf) : Prop :=
  (∃ l ≤ c.LMAX, c.kl l + 1 = 0) ∨ (c.POLAR = true ∧ 2 ≤ c.LMAX ∧ c.klf - c.k2b = 0) ∨
    ∀ y, transform c (ocean c) = some y → y.clm 0 0 = 0

open Classical in
/-- `sea_level_equation(...)` (sea_level_equation.py:130-405); `none` is an exception or a
field without finite values.  The latter happens when some `1 + kl[l]` is zero (division in `coefp`),
when `klf = k2b` with polar feedback, or when the ocean has no area.  The grid must be longitude by
latitude.  `tol`, `scalef` are the constants of `plm_holmes`. -/
noncomputable def seaLevel (E : Earth) (tol scalef : ℝ) (a : Args) (load : CSlm) : Option (ℕ → ℕ → ℝ) :=
  match polarLove a, plmAll tol scalef a.LMAX a.LMAX a.glat a.PLM with
  | some (k, h, f), some p =>
    let c : Conf := ⟨E, a.nphi, a.nth, a.glon, a.glat, a.land, a.LMAX, a.hl, a.kl, a.POLAR, k, h, f, a.SCALE, p⟩
    if undefined c then none
    else
      match solve c load a.ITERATIONS with
      | none => none
      | some r => finish c a.FILL r
  | _, _ => none

end Verif.SeaLevel
