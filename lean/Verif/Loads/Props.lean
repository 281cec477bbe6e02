import Verif.Loads.Model
import Verif.Analysis.Points
import Mathlib.MeasureTheory.Integral.IntervalIntegral.FundThmCalculus
import Mathlib.Analysis.SpecialFunctions.Trigonometric.Bounds
import Mathlib.Analysis.Calculus.Deriv.Polynomial
import Mathlib.Topology.Algebra.Polynomial

/-!
# Property C38: disc loads and spherical caps
-/
namespace Verif.Loads
open Verif.Legendre Verif.Units Verif.Analysis Verif.Synthesis

/-- Specification: the Legendre coefficient `(2l+1)/2 int_x^1 P_l(t) dt` of the indicator function of the
cap of angular radius `arccos x` -/
noncomputable def capCoeff (l : ℕ) (x : ℝ) : ℝ := (2 * l + 1) / 2 * ∫ t in x..1, (legendreP l).eval t

theorem dLeg_hasDeriv (l m : ℕ) (t : ℝ) : HasDerivAt (fun y => dLeg l m y) (dLeg l (m + 1) t) t := by
  have := (Polynomial.derivative^[m] (legendreP l)).hasDerivAt t
  rw [← Function.iterate_succ_apply' (f := ⇑Polynomial.derivative)] at this
  exact this

theorem capCoeff_zero (x : ℝ) : capCoeff 0 x = (1 - x) / 2 := by
  unfold capCoeff
  have : ∀ t : ℝ, (legendreP 0).eval t = 1 := fun t => dLeg_zero_zero t
  simp only [this]
  rw [intervalIntegral.integral_const]
  simp; ring

/-- the closed form of Longman: `int_x^1 P_l = (P_{l-1}(x) - P_{l+1}(x))/(2l+1)` -/
theorem capCoeff_succ (l : ℕ) (x : ℝ) : capCoeff (l + 1) x = (dLeg l 0 x - dLeg (l + 2) 0 x) / 2 := by
  have hd : ∀ t ∈ Set.uIcc x 1, HasDerivAt (fun y => (dLeg (l + 2) 0 y - dLeg l 0 y) / (2 * l + 3))
      ((legendreP (l + 1)).eval t) t := by
    intro t _
    have h1 := (dLeg_hasDeriv (l + 2) 0 t).sub (dLeg_hasDeriv l 0 t)
    have h2 := h1.div_const (2 * (l : ℝ) + 3)
    have h3 := dLeg_below' l 1 t
    have hb : below (l + 1) 1 t = dLeg (l + 1) 0 t := by rw [below, dLeg_T]; rfl
    rw [hb] at h3
    have h4 : (2 * (l : ℝ) + 3) ≠ 0 := by positivity
    have e : (dLeg (l + 2) (0 + 1) t - dLeg l (0 + 1) t) / (2 * (l : ℝ) + 3) = (legendreP (l + 1)).eval t := by
      have : dLeg (l + 1) 0 t = (legendreP (l + 1)).eval t := by
        unfold dLeg; simp only [Function.iterate_zero, id_eq]
      rw [Nat.zero_add, h3, this]
      field_simp
      ring
    rw [e] at h2
    exact h2
  have hi : IntervalIntegrable (fun t => (legendreP (l + 1)).eval t) MeasureTheory.volume x 1 :=
    (Polynomial.continuous _).intervalIntegrable _ _
  unfold capCoeff
  rw [intervalIntegral.integral_eq_sub_of_hasDerivAt hd hi, dLeg_at_one, dLeg_at_one]
  have h4 : (2 * (l : ℝ) + 3) ≠ 0 := by positivity
  push_cast
  field_simp
  ring

/-- C38: the degree factors computed by the code are the Legendre coefficients of the cap -/
theorem plAlpha_correct (eps : ℝ) (LMAX : ℕ) (x : ℝ) (hx : x ^ 2 ≤ 1) :
    ∃ pa, plAlpha eps LMAX x = some pa ∧ ∀ l ≤ LMAX, pa l = capCoeff l x := by
  obtain ⟨s, hs, hv, -⟩ := legendrePolynomials_closed eps (LMAX + 1) (by omega) x hx
  refine ⟨_, by unfold plAlpha; rw [hs, Option.map_some], ?_⟩
  intro l hl
  rcases l with _ | l
  · simp only [if_true]; rw [capCoeff_zero]
  · rw [if_neg (by omega), if_pos hl, show l + 1 - 1 = l by omega, show l + 1 + 1 = l + 2 by omega,
      hv l (by omega), hv (l + 2) (by omega), capCoeff_succ]
    have e1 : Real.sqrt (2 * ((l + 1 : ℕ) : ℝ) - 1) = Real.sqrt (2 * l + 1) := by congr 1; push_cast; ring
    have e2 : Real.sqrt (2 * ((l + 1 : ℕ) : ℝ) + 3) = Real.sqrt (2 * ((l + 2 : ℕ) : ℝ) + 1) := by
      congr 1; push_cast; ring
    rw [e1, e2]
    have h1 : Real.sqrt (2 * (l : ℝ) + 1) ≠ 0 := (Real.sqrt_pos.2 (by positivity)).ne'
    have h2 : Real.sqrt (2 * ((l + 2 : ℕ) : ℝ) + 1) ≠ 0 := (Real.sqrt_pos.2 (by positivity)).ne'
    field_simp

/-- C38: a cap that covers the whole sphere has no coefficient above degree zero -/
theorem capCoeff_sphere (l : ℕ) : capCoeff 0 (-1) = 1 ∧ capCoeff (l + 1) (-1) = 0 := by
  constructor
  · rw [capCoeff_zero]; norm_num
  · rw [capCoeff_succ, dLeg_at_pole l (-1) (by norm_num), dLeg_at_pole (l + 2) (-1) (by norm_num), pow_add]
    norm_num

/-- Specification of the units of disc loads and caps: conversion and degree factor -/
def LoadSpec (E : Earth) (u : UnitArg) (kl : ℕ → ℝ) (areaCm conv : ℝ) (df : ℕ → ℝ) : Prop :=
  (u = .custom df ∧ conv = 1) ∨
  (∃ f, (spatial E true kl {}).cmwe = some f ∧ (∀ l : ℕ, df l = 4 * Real.pi * f l / (1 + 2 * l)) ∧
    ((u = .code 1 ∧ conv = 1) ∨ (u = .code 2 ∧ conv = 10 ^ 15 / areaCm) ∨ (u = .code 3 ∧ conv = 1 / 10)))

theorem loadUnits_spec (E : Earth) (u : UnitArg) (kl : ℕ → ℝ) (a conv : ℝ) (df : ℕ → ℝ)
    (h : LoadSpec E u kl a conv df) : loadUnits E u kl a = some (conv, df) := by
  rcases h with ⟨rfl, rfl⟩ | ⟨f, hf, hd, h⟩
  · rfl
  · have hl : loadFactor E kl = some df := by
      unfold loadFactor; rw [hf]
      simp only [Option.map_some, Option.some.injEq]
      funext l; exact (hd l).symm
    rcases h with ⟨rfl, rfl⟩ | ⟨rfl, rfl⟩ | ⟨rfl, rfl⟩
    · unfold loadUnits; dsimp only; rw [if_pos rfl, hl]; rfl
    · unfold loadUnits; dsimp only; rw [if_neg (by decide), if_pos rfl, hl]
      simp only [Option.map_some, Option.some.injEq, Prod.mk.injEq, and_true]; norm_num
    · unfold loadUnits; dsimp only; rw [if_neg (by decide), if_neg (by decide), if_pos rfl, hl]
      simp only [Option.map_some, Option.some.injEq, Prod.mk.injEq, and_true]; norm_num

/-- what both routines return: coefficient of the cap at the pole, rotated to its centre -/
def IsCap (r : CSlm) (x conv data lon lat : ℝ) (df : ℕ → ℝ) (LMAX MMAX : ℕ) : Prop :=
  ∀ l m,
    (l ≤ LMAX ∧ m ≤ l ∧ m ≤ MMAX →
      r.clm l m = df l * capCoeff l x * (conv * data) *
        Plm l m (Real.cos (colat lat)) (Real.sin (colat lat)) * Real.cos (m * (lon * Real.pi / 180)) ∧
      r.slm l m = df l * capCoeff l x * (conv * data) *
        Plm l m (Real.cos (colat lat)) (Real.sin (colat lat)) * Real.sin (m * (lon * Real.pi / 180))) ∧
    (¬ (l ≤ LMAX ∧ m ≤ l ∧ m ≤ MMAX) → r.clm l m = 0 ∧ r.slm l m = 0)

theorem load_correct (E : Earth) (eps scalef : ℝ) (hs : scalef ≠ 0) (x a data lon lat : ℝ) (hx : x ^ 2 ≤ 1)
    (h1 : -90 < lat) (h2 : lat < 90) (LMAX : ℕ) (hL : 2 ≤ LMAX) (MMAX : Option ℕ) (hM0 : MMAX.getD LMAX ≠ 0)
    (hM : MMAX.getD LMAX ≤ LMAX) (u : UnitArg) (kl : ℕ → ℝ) (conv : ℝ) (df : ℕ → ℝ)
    (hu : LoadSpec E u kl a conv df) :
    ∃ r, load E eps scalef x a data lon lat LMAX MMAX u none kl = some r ∧
      IsCap r x conv data lon lat df LMAX (MMAX.getD LMAX) := by
  obtain ⟨pa, hpa, hpv⟩ := plAlpha_correct eps LMAX x hx
  obtain ⟨p, hp, hv⟩ := usePLM_interior eps scalef hs LMAX hL lat h1 h2
  have hc : plmCentre eps scalef LMAX (MMAX.getD LMAX) lat none = some p := by
    unfold plmCentre; dsimp only
    rw [if_neg (by omega)]
    exact hp
  refine ⟨assemble LMAX (MMAX.getD LMAX) p pa df conv data (lon * Real.pi / 180), ?_, ?_⟩
  · unfold load; simp only; rw [loadUnits_spec E u kl a conv df hu, hpa, hc]
  · intro l m
    refine ⟨fun h => ?_, fun h => ?_⟩
    · have hcond : m ≤ MMAX.getD LMAX ∧ m ≤ l ∧ l ≤ LMAX := ⟨h.2.2, h.2.1, h.1⟩
      unfold assemble
      simp only
      rw [if_pos hcond, if_pos hcond, hpv l h.1, hv l h.1 m]
      unfold colat
      constructor <;> ring
    · have hcond : ¬ (m ≤ MMAX.getD LMAX ∧ m ≤ l ∧ l ≤ LMAX) := fun c => h ⟨c.2.2, c.2.1, c.1⟩
      unfold assemble
      simp only
      rw [if_neg hcond, if_neg hcond]
      exact ⟨rfl, rfl⟩

/-- the disc of `area` km^2 as a fraction of the sphere -/
noncomputable def discX (E : Earth) (area : ℝ) : ℝ := 1 - 1e10 * area / (2 * Real.pi * rad_e E ^ 2)

/-- C38: `gen_disc_load` returns the harmonics of the cap with the given area, centred at the point -/
theorem discLoad_correct (E : Earth) (hE : E.Ok) (eps scalef : ℝ) (hs : scalef ≠ 0) (data lon lat area : ℝ)
    (ha0 : 0 ≤ area) (ha : 1e10 * area ≤ 4 * Real.pi * rad_e E ^ 2) (h1 : -90 < lat) (h2 : lat < 90)
    (LMAX : ℕ) (hL : 2 ≤ LMAX) (MMAX : Option ℕ) (hM0 : MMAX.getD LMAX ≠ 0) (hM : MMAX.getD LMAX ≤ LMAX)
    (u : UnitArg) (kl : ℕ → ℝ) (conv : ℝ) (df : ℕ → ℝ) (hu : LoadSpec E u kl (1e10 * area) conv df) :
    ∃ r, discLoad E eps scalef data lon lat area LMAX MMAX u none kl = some r ∧
      IsCap r (discX E area) conv data lon lat df LMAX (MMAX.getD LMAX) := by
  have hR := rad_pos hE
  have hpi := Real.pi_pos
  have hq0 : 0 ≤ 1e10 * area / (2 * Real.pi * rad_e E ^ 2) := by positivity
  have hq2 : 1e10 * area / (2 * Real.pi * rad_e E ^ 2) ≤ 2 := by
    rw [div_le_iff₀ (by positivity)]; linarith
  exact load_correct E eps scalef hs _ _ data lon lat (by nlinarith) h1 h2 LMAX hL MMAX hM0 hM u kl conv df hu

/-- C38: `gen_spherical_cap` returns the harmonics of the cap of the angular radius it derives -/
theorem sphericalCap_correct (E : Earth) (eps scalef : ℝ) (hs : scalef ≠ 0) (data lon lat RAD_CAP AREA RAD_KM : ℝ)
    (alpha : ℝ) (hal : capAngle E RAD_CAP AREA RAD_KM = some alpha) (h1 : -90 < lat) (h2 : lat < 90)
    (LMAX : ℕ) (hL : 2 ≤ LMAX) (MMAX : Option ℕ) (hM0 : MMAX.getD LMAX ≠ 0) (hM : MMAX.getD LMAX ≤ LMAX)
    (u : UnitArg) (kl : ℕ → ℝ) (conv : ℝ) (df : ℕ → ℝ)
    (hu : LoadSpec E u kl (Real.pi * (alpha * rad_e E) ^ 2) conv df) :
    ∃ r, sphericalCap E eps scalef data lon lat RAD_CAP AREA RAD_KM LMAX MMAX u none kl = some r ∧
      IsCap r (Real.cos alpha) conv data lon lat df LMAX (MMAX.getD LMAX) := by
  obtain ⟨r, hr, hv⟩ := load_correct E eps scalef hs (Real.cos alpha) (Real.pi * (alpha * rad_e E) ^ 2) data lon lat
    (by rw [sq_le_one_iff_abs_le_one]; exact Real.abs_cos_le_one _) h1 h2 LMAX hL MMAX hM0 hM u kl conv df hu
  refine ⟨r, ?_, hv⟩
  unfold sphericalCap; rw [hal]; exact hr

/-- the radius arguments: degrees win over area over kilometres, none of them is an error -/
theorem capAngle_spec (E : Earth) (c a k : ℝ) :
    (c ≠ 0 → capAngle E c a k = some (c * Real.pi / 180)) ∧
    (c = 0 → a ≠ 0 → capAngle E c a k = some (Real.sqrt (a / Real.pi) / rad_e E)) ∧
    (c = 0 → a = 0 → k ≠ 0 → capAngle E c a k = some (10 ^ 5 * k / rad_e E)) ∧
    (capAngle E c a k = none ↔ c = 0 ∧ a = 0 ∧ k = 0) := by
  unfold capAngle
  refine ⟨fun h => if_pos h, fun h h' => by rw [if_neg (by simp [h]), if_pos h'],
    fun h h' h'' => by rw [if_neg (by simp [h]), if_neg (by simp [h']), if_pos h'']; norm_num, ?_⟩
  by_cases hc : c = 0
  · by_cases ha : a = 0
    · by_cases hk : k = 0 <;> simp [hc, ha, hk]
    · simp [hc, ha]
  · simp [hc]

/-- C38: non-vacuity of the two theorems: a disc of 10^5 km^2 in gigatonnes and a cap of 1 degree -/
example (kl : ℕ → ℝ) : (0 : ℝ) ≤ 1e5 ∧ 1e10 * 1e5 ≤ 4 * Real.pi * rad_e Earth.default ^ 2 ∧
    (∃ conv df, LoadSpec Earth.default (.code 2) kl (1e10 * 1e5) conv df) ∧
    capAngle Earth.default 1 0 0 = some (1 * Real.pi / 180) := by
  refine ⟨by norm_num, ?_, ⟨_, _, Or.inr ⟨_, rfl, fun l => rfl, Or.inr (Or.inl ⟨rfl, rfl⟩)⟩⟩,
    (capAngle_spec _ 1 0 0).1 one_ne_zero⟩
  have h1 : (1 : ℝ) ≤ Real.pi := by linarith [Real.one_le_pi_div_two]
  have h2 : (3e8 : ℝ) ≤ rad_e Earth.default := by
    have hbase : (1 / 8 : ℝ) ≤ 1 - Earth.default.flat := by simp only [Earth.default]; norm_num
    have hpow : (1 / 2 : ℝ) ≤ (1 - Earth.default.flat) ^ ((1 : ℝ) / 3) := by
      have : (1 / 2 : ℝ) = (1 / 8 : ℝ) ^ ((1 : ℝ) / 3) := by
        rw [show (1 / 8 : ℝ) = (1 / 2) ^ (3 : ℕ) by norm_num, ← Real.rpow_natCast, ← Real.rpow_mul (by norm_num)]
        norm_num
      rw [this]
      exact Real.rpow_le_rpow (by norm_num) hbase (by norm_num)
    unfold rad_e
    have : Earth.default.a_axis = 6.378137e8 := rfl
    rw [this]
    nlinarith
  have h3 : (3e8 : ℝ) ^ 2 ≤ rad_e Earth.default ^ 2 := by gcongr
  nlinarith

/-- C38: the mass of a disc in gigatonnes is conserved exactly at every truncation: the degree-zero
coefficient times the mass of the Earth is the input mass in grams -/
theorem disc_mass (E : Earth) (hE : E.Ok) (eps scalef : ℝ) (hs : scalef ≠ 0) (data lon lat area : ℝ)
    (ha0 : 0 < area) (ha : 1e10 * area ≤ 4 * Real.pi * rad_e E ^ 2) (h1 : -90 < lat) (h2 : lat < 90)
    (LMAX : ℕ) (hL : 2 ≤ LMAX) (MMAX : Option ℕ) (hM0 : MMAX.getD LMAX ≠ 0) (hM : MMAX.getD LMAX ≤ LMAX)
    (kl : ℕ → ℝ) (hk : kl 0 = 0) :
    ∃ r, discLoad E eps scalef data lon lat area LMAX MMAX (.code 2) none kl = some r ∧
      r.clm 0 0 * mass E = 10 ^ 15 * data := by
  obtain ⟨f, hf⟩ : ∃ f, (spatial E true kl {}).cmwe = some f := ⟨_, rfl⟩
  obtain ⟨r, hr, hv⟩ := discLoad_correct E hE eps scalef hs data lon lat area ha0.le ha h1 h2 LMAX hL MMAX hM0 hM
    (.code 2) kl (10 ^ 15 / (1e10 * area)) (fun l => 4 * Real.pi * f l / (1 + 2 * l))
    (Or.inr ⟨f, hf, fun _ => rfl, Or.inr (Or.inl ⟨rfl, rfl⟩)⟩)
  refine ⟨r, hr, ?_⟩
  rw [((hv 0 0).1 ⟨Nat.zero_le _, le_rfl, Nat.zero_le _⟩).1, capCoeff_zero, Plm_zero_zero]
  have hz := cmwe_zero E kl hk hE f hf
  have hR := (rad_pos hE).ne'
  have hpi := Real.pi_pos.ne'
  have ha' := ha0.ne'
  unfold discX
  simp only [Nat.cast_zero, zero_mul, Real.cos_zero, mul_zero, add_zero, div_one, mul_one, sub_sub_cancel]
  have : 4 * Real.pi * f 0 * (1e10 * area / (2 * Real.pi * rad_e E ^ 2) / 2) * (10 ^ 15 / (1e10 * area) * data) * mass E =
      (f 0 * mass E) * (4 * Real.pi * (1e10 * area / (2 * Real.pi * rad_e E ^ 2) / 2) * (10 ^ 15 / (1e10 * area) * data)) := by
    ring
  rw [this, hz]
  field_simp
  ring

theorem one_sub_cos_lt (a : ℝ) (h : a ≠ 0) : 2 * (1 - Real.cos a) < a ^ 2 := by
  have h1 : Real.cos a = 1 - 2 * Real.sin (a / 2) ^ 2 := by
    have := Real.cos_two_mul (a / 2)
    have h2 := Real.sin_sq_add_cos_sq (a / 2)
    rw [show 2 * (a / 2) = a by ring] at this
    nlinarith
  have h2 : Real.sin (a / 2) ^ 2 < (a / 2) ^ 2 := by
    rw [sq_lt_sq]
    exact Real.abs_sin_lt_abs (by simpa using h)
  rw [h1]; nlinarith

/-- C38: a cap in gigatonnes loses mass: the code spreads the mass over the flat area `pi (alpha R)^2`,
so the total is `2 (1 - cos alpha)/alpha^2` of the input, always less than all of it -/
theorem cap_mass (E : Earth) (hE : E.Ok) (eps scalef : ℝ) (hs : scalef ≠ 0) (data lon lat RAD_CAP AREA RAD_KM : ℝ)
    (alpha : ℝ) (hal : capAngle E RAD_CAP AREA RAD_KM = some alpha) (ha0 : alpha ≠ 0) (h1 : -90 < lat) (h2 : lat < 90)
    (LMAX : ℕ) (hL : 2 ≤ LMAX) (MMAX : Option ℕ) (hM0 : MMAX.getD LMAX ≠ 0) (hM : MMAX.getD LMAX ≤ LMAX)
    (kl : ℕ → ℝ) (hk : kl 0 = 0) :
    ∃ r, sphericalCap E eps scalef data lon lat RAD_CAP AREA RAD_KM LMAX MMAX (.code 2) none kl = some r ∧
      r.clm 0 0 * mass E = 10 ^ 15 * data * (2 * (1 - Real.cos alpha) / alpha ^ 2) ∧
      2 * (1 - Real.cos alpha) / alpha ^ 2 < 1 := by
  obtain ⟨f, hf⟩ : ∃ f, (spatial E true kl {}).cmwe = some f := ⟨_, rfl⟩
  obtain ⟨r, hr, hv⟩ := sphericalCap_correct E eps scalef hs data lon lat RAD_CAP AREA RAD_KM alpha hal h1 h2 LMAX hL
    MMAX hM0 hM (.code 2) kl (10 ^ 15 / (Real.pi * (alpha * rad_e E) ^ 2)) (fun l => 4 * Real.pi * f l / (1 + 2 * l))
    (Or.inr ⟨f, hf, fun _ => rfl, Or.inr (Or.inl ⟨rfl, rfl⟩)⟩)
  refine ⟨r, hr, ?_, ?_⟩
  · rw [((hv 0 0).1 ⟨Nat.zero_le _, le_rfl, Nat.zero_le _⟩).1, capCoeff_zero, Plm_zero_zero]
    have hz := cmwe_zero E kl hk hE f hf
    have hR := (rad_pos hE).ne'
    have hpi := Real.pi_pos.ne'
    simp only [Nat.cast_zero, zero_mul, Real.cos_zero, mul_zero, add_zero, div_one, mul_one]
    have : 4 * Real.pi * f 0 * ((1 - Real.cos alpha) / 2) * (10 ^ 15 / (Real.pi * (alpha * rad_e E) ^ 2) * data) * mass E =
      (f 0 * mass E) * (4 * Real.pi * ((1 - Real.cos alpha) / 2) * (10 ^ 15 / (Real.pi * (alpha * rad_e E) ^ 2) * data)) := by
      ring
    rw [this, hz]
    field_simp
    ring
  · have hp : 0 < alpha ^ 2 := by positivity
    rw [div_lt_one hp]
    exact one_sub_cos_lt alpha ha0

/-- C38: moving the load east by `d` degrees rotates each pair `(clm, slm)` by `m d`, so the power of
every coefficient pair is unchanged; for any radius, unit and Legendre functions -/
theorem load_rotate (E : Earth) (eps scalef x a data lon lat d : ℝ) (LMAX : ℕ) (MMAX : Option ℕ) (u : UnitArg)
    (PLM : Option (ℕ → ℕ → ℝ)) (kl : ℕ → ℝ) (r : CSlm)
    (h : load E eps scalef x a data lon lat LMAX MMAX u PLM kl = some r) :
    ∃ t, load E eps scalef x a data (lon + d) lat LMAX MMAX u PLM kl = some t ∧ ∀ l m : ℕ,
      t.clm l m = Real.cos (m * (d * Real.pi / 180)) * r.clm l m - Real.sin (m * (d * Real.pi / 180)) * r.slm l m ∧
      t.slm l m = Real.sin (m * (d * Real.pi / 180)) * r.clm l m + Real.cos (m * (d * Real.pi / 180)) * r.slm l m ∧
      t.clm l m ^ 2 + t.slm l m ^ 2 = r.clm l m ^ 2 + r.slm l m ^ 2 := by
  unfold load at *
  simp only at *
  split at h
  · rename_i conv df pa p h1 h2 h3
    simp only [Option.some.injEq] at h
    subst h
    refine ⟨_, rfl, fun l m => ?_⟩
    have e : (m : ℝ) * ((lon + d) * Real.pi / 180) = m * (lon * Real.pi / 180) + m * (d * Real.pi / 180) := by ring
    have hsc := Real.sin_sq_add_cos_sq ((m : ℝ) * (d * Real.pi / 180))
    have h12 : (assemble LMAX (MMAX.getD LMAX) p pa df conv data ((lon + d) * Real.pi / 180)).clm l m =
        Real.cos (m * (d * Real.pi / 180)) * (assemble LMAX (MMAX.getD LMAX) p pa df conv data (lon * Real.pi / 180)).clm l m -
        Real.sin (m * (d * Real.pi / 180)) * (assemble LMAX (MMAX.getD LMAX) p pa df conv data (lon * Real.pi / 180)).slm l m ∧
        (assemble LMAX (MMAX.getD LMAX) p pa df conv data ((lon + d) * Real.pi / 180)).slm l m =
        Real.sin (m * (d * Real.pi / 180)) * (assemble LMAX (MMAX.getD LMAX) p pa df conv data (lon * Real.pi / 180)).clm l m +
        Real.cos (m * (d * Real.pi / 180)) * (assemble LMAX (MMAX.getD LMAX) p pa df conv data (lon * Real.pi / 180)).slm l m := by
      unfold assemble
      simp only [e, Real.cos_add, Real.sin_add]
      by_cases c : m ≤ MMAX.getD LMAX ∧ m ≤ l ∧ l ≤ LMAX
      · simp only [if_pos c]; constructor <;> ring
      · simp only [if_neg c]; constructor <;> ring
    refine ⟨h12.1, h12.2, ?_⟩
    rw [h12.1, h12.2]
    linear_combination ((assemble LMAX (MMAX.getD LMAX) p pa df conv data (lon * Real.pi / 180)).clm l m ^ 2 +
      (assemble LMAX (MMAX.getD LMAX) p pa df conv data (lon * Real.pi / 180)).slm l m ^ 2) * hsc
  · cases h

/-- C38: the load is linear in the data magnitude -/
theorem load_scale (E : Earth) (eps scalef x a data k lon lat : ℝ) (LMAX : ℕ) (MMAX : Option ℕ) (u : UnitArg)
    (PLM : Option (ℕ → ℕ → ℝ)) (kl : ℕ → ℝ) (r : CSlm)
    (h : load E eps scalef x a data lon lat LMAX MMAX u PLM kl = some r) :
    ∃ t, load E eps scalef x a (k * data) lon lat LMAX MMAX u PLM kl = some t ∧ ∀ l m : ℕ,
      t.clm l m = k * r.clm l m ∧ t.slm l m = k * r.slm l m := by
  unfold load at *
  simp only at *
  split at h
  · rename_i conv df pa p h1 h2 h3
    simp only [Option.some.injEq] at h
    subst h
    refine ⟨_, rfl, fun l m => ?_⟩
    unfold assemble
    by_cases c : m ≤ MMAX.getD LMAX ∧ m ≤ l ∧ l ≤ LMAX
    · simp only [if_pos c]; constructor <;> ring
    · simp only [if_neg c]; constructor <;> ring
  · cases h

/-- C38: purely zonal loads (`MMAX = 0`) cannot be computed without supplying the Legendre functions -/
theorem load_zonal_raises (E : Earth) (eps scalef x a data lon lat : ℝ) (LMAX : ℕ) (u : UnitArg) (kl : ℕ → ℝ) :
    load E eps scalef x a data lon lat LMAX (some 0) u none kl = none := by
  unfold load plmCentre
  simp only [Option.getD_some, true_or, if_true]
  split
  · rename_i h; cases h
  · rfl

end Verif.Loads
