import Verif.Analysis.Model

/-!
# Model of `gen_disc_load.py` and `gen_spherical_cap.py`

One disc or cap (the code says: data and phi are a single point).  Exact real arithmetic.
-/
namespace Verif.Loads
open Verif.Legendre Verif.Units Verif.Analysis

/-- degree factor `4 pi cmwe/(1+2l)` (gen_disc_load.py:153, 160, 168; gen_spherical_cap.py:188, 199, 207) -/
noncomputable def loadFactor (E : Earth) (kl : ℕ → ℝ) : Option (ℕ → ℝ) :=
  (spatial E true kl {}).cmwe.map fun f => fun l => 4 * Real.pi * f l / (1 + 2 * l)

/-- `unit_conv` and `dfactor` (gen_disc_load.py:143-170, gen_spherical_cap.py:178-209); `areaCm` is the
area in cm^2 that gigatonnes are spread over -/
noncomputable def loadUnits (E : Earth) (u : UnitArg) (kl : ℕ → ℝ) (areaCm : ℝ) : Option (ℝ × (ℕ → ℝ)) :=
  match u with
  | .custom f => some (1, f)
  | .code n =>
    if n = 1 then (loadFactor E kl).map fun f => (1, f)
    else if n = 2 then (loadFactor E kl).map fun f => (1e15 / areaCm, f)
    else if n = 3 then (loadFactor E kl).map fun f => (0.1, f)
    else none

/-- `pl_alpha` from `x = cos(alpha)` (gen_disc_load.py:172-186, gen_spherical_cap.py:211-228) -/
noncomputable def plAlpha (eps : ℝ) (LMAX : ℕ) (x : ℝ) : Option (ℕ → ℝ) :=
  (legendrePolynomials eps (LMAX + 1) x).map fun s => fun l =>
    if l = 0 then (1 - x) / 2
    else if l ≤ LMAX then
      (s.1 (l - 1) / Real.sqrt (2 * l - 1) - s.1 (l + 1) / Real.sqrt (2 * l + 3)) / 2
    else 0

/-- `plmout` (gen_disc_load.py:188-197, gen_spherical_cap.py:230-240).  `none` when `plm_holmes` raises
and for `MMAX = 0`, where `np.squeeze` also drops the order axis that is indexed next. -/
noncomputable def plmCentre (eps scalef : ℝ) (LMAX MMAX : ℕ) (lat : ℝ) (PLM : Option (ℕ → ℕ → ℝ)) :
    Option (ℕ → ℕ → ℝ) :=
  match PLM with
  | some p => some p
  | none => if MMAX = 0 ∨ LMAX < MMAX then none
    else (holmes eps scalef LMAX (Real.cos (colat lat))).map (·.p)

/-- the common last part (gen_disc_load.py:199-230, gen_spherical_cap.py:242-273) -/
noncomputable def assemble (LMAX MMAX : ℕ) (p : ℕ → ℕ → ℝ) (pa df : ℕ → ℝ) (conv data phi : ℝ) : CSlm :=
  ⟨fun l m => if m ≤ MMAX ∧ m ≤ l ∧ l ≤ LMAX then df l * (p l m * pa l * (conv * data * Real.cos (m * phi))) else 0,
   fun l m => if m ≤ MMAX ∧ m ≤ l ∧ l ≤ LMAX then df l * (p l m * pa l * (conv * data * Real.sin (m * phi))) else 0⟩

/-- both routines from the cosine of the angular radius on -/
noncomputable def load (E : Earth) (eps scalef x areaCm data lon lat : ℝ) (LMAX : ℕ) (MMAX : Option ℕ) (u : UnitArg)
    (PLM : Option (ℕ → ℕ → ℝ)) (kl : ℕ → ℝ) : Option CSlm :=
  let M := MMAX.getD LMAX
  match loadUnits E u kl areaCm, plAlpha eps LMAX x, plmCentre eps scalef LMAX M lat PLM with
  | some (conv, df), some pa, some p => some (assemble LMAX M p pa df conv data (lon * Real.pi / 180))
  | _, _, _ => none

/-- `gen_disc_load(data, lon, lat, area, ...)` (gen_disc_load.py:84-233), area in km^2 -/
noncomputable def discLoad (E : Earth) (eps scalef data lon lat area : ℝ) (LMAX : ℕ) (MMAX : Option ℕ) (u : UnitArg)
    (PLM : Option (ℕ → ℕ → ℝ)) (kl : ℕ → ℝ) : Option CSlm :=
  load E eps scalef (1 - 1e10 * area / (2 * Real.pi * rad_e E ^ 2)) (1e10 * area) data lon lat LMAX MMAX u PLM kl

/-- the angular radius of the cap (gen_spherical_cap.py:157-176); `none` is the `ValueError` -/
noncomputable def capAngle (E : Earth) (RAD_CAP AREA RAD_KM : ℝ) : Option ℝ :=
  if RAD_CAP ≠ 0 then some (RAD_CAP * Real.pi / 180)
  else if AREA ≠ 0 then some (Real.sqrt (AREA / Real.pi) / rad_e E)
  else if RAD_KM ≠ 0 then some (1e5 * RAD_KM / rad_e E)
  else none

/-- `gen_spherical_cap(data, lon, lat, ...)` (gen_spherical_cap.py:101-276) -/
noncomputable def sphericalCap (E : Earth) (eps scalef data lon lat RAD_CAP AREA RAD_KM : ℝ) (LMAX : ℕ)
    (MMAX : Option ℕ) (u : UnitArg) (PLM : Option (ℕ → ℕ → ℝ)) (kl : ℕ → ℝ) : Option CSlm :=
  match capAngle E RAD_CAP AREA RAD_KM with
  | none => none
  | some alpha =>
    load E eps scalef (Real.cos alpha) (Real.pi * (alpha * rad_e E) ^ 2) data lon lat LMAX MMAX u PLM kl

end Verif.Loads
