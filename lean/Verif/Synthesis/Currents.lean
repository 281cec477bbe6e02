import Verif.Synthesis.Summation
import Verif.Legendre.Props
import Verif.Units.Model
import Mathlib.Algebra.BigOperators.Field

/-!
# Property C62: geostrophic currents are the geostrophic balance of the pressure field

Specification: `pressure` is `g` times the surface mass of the coefficients; the balance is
eastward `u = p_θ / (2 Ω cosθ ρ R)` and northward `v = p_φ / (2 Ω cosθ ρ R sinθ)`.  The second component
of the code is positive southward, `-v`.
-/
namespace Verif.Synthesis
open Verif.Legendre

/-- the coupling coefficient of neighbouring degrees, `sqrt((l^2-m^2)/((2l-1)(2l+1)))` -/
noncomputable def nb (l m : ℕ) : ℝ := Real.sqrt (((l : ℝ) ^ 2 - (m : ℝ) ^ 2) / ((2 * l - 1) * (2 * l + 1)))

theorem nb_self (m : ℕ) : nb m m = 0 := by unfold nb; simp

theorem sq_sub_nonneg (l m : ℕ) (h : m ≤ l) : (0 : ℝ) ≤ (l : ℝ) ^ 2 - (m : ℝ) ^ 2 := by
  have h1 : (m : ℝ) ≤ l := by exact_mod_cast h
  have h2 : (0 : ℝ) ≤ m := m.cast_nonneg
  nlinarith

theorem flm_nb (l m : ℕ) (h : m < l) : flm l m = (2 * l + 1) * nb l m := by
  unfold flm nb
  have hl : (1 : ℝ) ≤ l := by exact_mod_cast (by omega : 1 ≤ l)
  have hs := sq_sub_nonneg l m h.le
  have h1 : (0 : ℝ) < 2 * l - 1 := by linarith
  have h2 : (0 : ℝ) < 2 * l + 1 := by linarith
  rw [← Real.sqrt_sq h2.le, ← Real.sqrt_mul (by positivity), Real.sqrt_sq h2.le]
  congr 1
  field_simp

theorem nb_mul (l m : ℕ) (h : m < l) : (2 * l + 1) * (nb l m * nrm (l - 1) m) = (l + m) * nrm l m := by
  have := flm_nrm l m h
  rw [flm_nb l m h] at this
  linarith

theorem nb_mul' (l m : ℕ) (h : m < l) : (2 * l - 1) * (nb l m * nrm l m) = (l - m) * nrm (l - 1) m := by
  have h1 := nb_mul l m h
  have hl : (1 : ℝ) ≤ l := by exact_mod_cast (by omega : 1 ≤ l)
  have hp : (0 : ℝ) < 2 * l - 1 := by linarith
  have hq : (0 : ℝ) < 2 * l + 1 := by linarith
  have hr : (0 : ℝ) < l + m := by have := (m.cast_nonneg : (0:ℝ) ≤ m); linarith
  have hs : nb l m * nb l m = ((l : ℝ) ^ 2 - (m : ℝ) ^ 2) / ((2 * l - 1) * (2 * l + 1)) := by
    unfold nb
    apply Real.mul_self_sqrt
    have := sq_sub_nonneg l m h.le
    positivity
  have hs' : (2 * l - 1) * (2 * l + 1) * (nb l m * nb l m) = (l : ℝ) ^ 2 - (m : ℝ) ^ 2 := by
    rw [hs]; field_simp
  apply mul_left_cancel₀ hr.ne'
  linear_combination (-(2 * (l : ℝ) - 1) * nb l m) * h1 + nrm (l - 1) m * hs'

/-- multiplication by `x` couples neighbouring degrees -/
theorem x_mul_Plm (l m : ℕ) (h : m ≤ l) (x u : ℝ) :
    x * Plm l m x u = nb (l + 1) m * Plm (l + 1) m x u + nb l m * Plm (l - 1) m x u := by
  have h1 := nb_mul' (l + 1) m (by omega)
  rw [Nat.add_sub_cancel] at h1
  push_cast at h1
  unfold Plm
  have hq : (2 * (l : ℝ) + 1) ≠ 0 := by positivity
  cases l with
  | zero =>
    obtain rfl : m = 0 := by omega
    rw [nb_self, dLeg_zero_zero, Nat.zero_add, dLeg_one_zero]
    simp only [pow_zero, Nat.cast_zero] at *
    linear_combination (-x) * h1
  | succ k =>
    have hr := dLeg_rec k m x
    rw [Nat.add_sub_cancel]
    rcases Nat.lt_or_ge m (k + 1) with hm | hm
    · have h2 := nb_mul (k + 1) m hm
      rw [Nat.add_sub_cancel] at h2
      push_cast at *
      apply mul_left_cancel₀ hq
      linear_combination (-(u ^ m * dLeg (k + 1 + 1) m x)) * h1 - (u ^ m * dLeg k m x) * h2 -
        (nrm (k + 1) m * u ^ m) * hr
    · obtain rfl : m = k + 1 := by omega
      rw [nb_self]
      rw [dLeg_zero_of_lt k (k + 1) (by omega)] at hr
      push_cast at *
      apply mul_left_cancel₀ hq
      linear_combination (-(u ^ (k + 1) * dLeg (k + 1 + 1) (k + 1) x)) * h1 -
        (nrm (k + 1) (k + 1) * u ^ (k + 1)) * hr

/-- `sinθ ∂P/∂θ` couples neighbouring degrees -/
theorem sin_mul_Dlm (l m : ℕ) (h : m ≤ l) (x u : ℝ) (hu : u ≠ 0) :
    u * Dlm x u l m = l * nb (l + 1) m * Plm (l + 1) m x u - (l + 1) * nb l m * Plm (l - 1) m x u := by
  have hx := x_mul_Plm l m h x u
  unfold Dlm
  rw [if_neg (by omega)]
  by_cases hlm : l = m
  · subst hlm
    rw [if_pos rfl, nb_self] at *
    field_simp
    linear_combination (l : ℝ) * hx
  · rw [if_neg hlm, flm_nb l m (by omega)]
    field_simp
    linear_combination (l : ℝ) * hx
/-- one order of the zonal harmonics: with no coefficients in the two highest degrees the code's
harmonics sum to `sinθ ∂/∂θ` of the field with coefficients `(2l+1)/(1+k_l) c_lm`, plus a constant from
the degree-1 zonal coefficient (its degree-0 part is left out by the code) -/
theorem zonal_order (LMAX MMAX : ℕ) (coeff : ℝ) (kl : ℕ → ℝ) (c PLM : ℕ → ℕ → ℝ) (m : ℕ) (hm : m ≤ MMAX)
    (x u : ℝ) (hu : u ≠ 0) (hP : ∀ l ≤ LMAX, PLM l m = Plm l m x u)
    (htop : ∀ l, LMAX ≤ l + 1 → c l m = 0) :
    dSum LMAX PLM (zonalFlow LMAX MMAX coeff (fun _ => 1) kl c) m =
      coeff * (∑ l ∈ Finset.range (LMAX + 1), (2 * l + 1) / (1 + kl l) * c l m * (u * Dlm x u l m) +
        if m = 0 then 2 * Real.sqrt 3 / (1 + kl 1) * c 1 0 else 0) := by
  obtain ⟨q, hq⟩ : ∃ q : ℕ → ℝ, q = fun l : ℕ => (2 * (l : ℝ) + 1) / (1 + kl l) * c l m := ⟨_, rfl⟩
  obtain ⟨A, hA⟩ : ∃ A : ℕ → ℝ, A = fun l : ℕ => l * nb (l + 1) m * q l * Plm (l + 1) m x u := ⟨_, rfl⟩
  obtain ⟨B, hB⟩ : ∃ B : ℕ → ℝ, B = fun l : ℕ => ((l : ℝ) + 2) * nb (l + 1) m * q (l + 1) * Plm l m x u := ⟨_, rfl⟩
  have hq0 : ∀ l, LMAX ≤ l + 1 → q l = 0 := by intro l hl; rw [hq]; simp only; rw [htop l hl, mul_zero]
  have hB0 : B 0 = if m = 0 then 2 * Real.sqrt 3 / (1 + kl 1) * c 1 0 else 0 := by
    rw [hB]; simp only
    by_cases h0 : m = 0
    · subst h0
      rw [if_pos rfl, hq, Plm_zero_zero]
      have hn : nb (0 + 1) 0 = 1 / Real.sqrt 3 := by
        unfold nb
        rw [← Real.sqrt_one, ← Real.sqrt_div' _ (by norm_num)]
        congr 1; norm_num
      have h3 : Real.sqrt 3 * Real.sqrt 3 = 3 := Real.mul_self_sqrt (by norm_num)
      have h3' : Real.sqrt 3 ≠ 0 := by positivity
      rw [hn]
      have : 1 / Real.sqrt 3 = Real.sqrt 3 / 3 := by field_simp; linarith
      rw [this]
      push_cast
      ring
    · rw [if_neg h0, Plm_zero_of_lt 0 m (by omega)]; ring
  have hD : ∀ l, u * Dlm x u l m = l * nb (l + 1) m * Plm (l + 1) m x u - (l + 1) * nb l m * Plm (l - 1) m x u := by
    intro l
    by_cases hl : m ≤ l
    · exact sin_mul_Dlm l m hl x u hu
    · unfold Dlm
      rw [if_pos (by omega), Plm_zero_of_lt (l - 1) m (by omega)]
      by_cases hl1 : l + 1 = m
      · rw [hl1, nb_self]; ring
      · rw [Plm_zero_of_lt (l + 1) m (by omega)]; ring
  have hR : ∑ l ∈ Finset.range (LMAX + 1), (2 * l + 1) / (1 + kl l) * c l m * (u * Dlm x u l m) =
      ∑ l ∈ Finset.range (LMAX + 1), A l - ∑ l ∈ Finset.range LMAX, B l := by
    have e : ∀ l : ℕ, (2 * (l : ℝ) + 1) / (1 + kl l) * c l m * (u * Dlm x u l m) =
        A l - (l + 1) * nb l m * q l * Plm (l - 1) m x u := by
      intro l; rw [hD, hA, hq]; ring
    rw [Finset.sum_congr rfl (fun l _ => e l), Finset.sum_sub_distrib]
    congr 1
    rw [Finset.sum_range_succ']
    have e0 : (((0 : ℕ) : ℝ) + 1) * nb 0 m * q 0 * Plm (0 - 1) m x u = 0 := by
      by_cases h0 : m = 0
      · rw [h0, nb_self]; ring
      · rw [Plm_zero_of_lt (0 - 1) m (by omega)]; ring
    rw [e0, add_zero]
    refine Finset.sum_congr rfl fun l _ => ?_
    rw [hB, Nat.add_sub_cancel]; push_cast; ring
  have hroot : ∀ l : ℕ, 1 ≤ l → m ≤ l →
      Real.sqrt (((l : ℝ) ^ 2 - (m : ℝ) ^ 2) * (2 * l - 1) / (2 * l + 1)) = (2 * l - 1) * nb l m ∧
      Real.sqrt ((((l : ℝ) + 1) ^ 2 - (m : ℝ) ^ 2) * (2 * l + 3) / (2 * l + 1)) = (2 * l + 3) * nb (l + 1) m := by
    intro l hl hml
    have hl' : (1 : ℝ) ≤ l := by exact_mod_cast hl
    have h1 : (0 : ℝ) < 2 * l - 1 := by linarith
    have h2 : (0 : ℝ) < 2 * l + 1 := by linarith
    have h3 : (0 : ℝ) < 2 * l + 3 := by linarith
    have hs := sq_sub_nonneg l m hml
    have hs' := sq_sub_nonneg (l + 1) m (by omega)
    unfold nb
    constructor
    · nth_rewrite 2 [← Real.sqrt_sq h1.le]
      rw [← Real.sqrt_mul (by positivity)]
      congr 1; field_simp
    · nth_rewrite 2 [← Real.sqrt_sq h3.le]
      rw [← Real.sqrt_mul (by positivity)]
      congr 1
      push_cast
      rw [show 2 * ((l : ℝ) + 1) - 1 = 2 * l + 1 by ring, show 2 * ((l : ℝ) + 1) + 1 = 2 * l + 3 by ring]
      field_simp
  rw [hR]
  unfold dSum
  rw [sum_map_range]
  cases LMAX with
  | zero =>
    have : zonalFlow 0 MMAX coeff (fun _ => 1) kl c 0 m = 0 := by unfold zonalFlow; rw [if_neg (by omega)]
    rw [Finset.sum_range_one, Finset.sum_range_one, Finset.sum_range_zero, this, ← hB0, hA, hB]
    simp only
    rw [hq0 0 (by omega), hq0 (0 + 1) (by omega)]
    ring
  | succ n =>
    have hf : ∀ l, l < n → PLM (l + 1) m * zonalFlow (n + 1) MMAX coeff (fun _ => 1) kl c (l + 1) m =
        coeff * (A l - B (l + 1)) := by
      intro l hl
      rw [hP (l + 1) (by omega)]
      by_cases hml : m ≤ l + 1
      · obtain ⟨r1, r2⟩ := hroot (l + 1) (by omega) hml
        unfold zonalFlow
        rw [if_pos ⟨by omega, by omega, by omega⟩, r1, r2, hA, hB, hq, Nat.add_sub_cancel]
        push_cast
        ring
      · rw [hA, hB]; simp only
        rw [Plm_zero_of_lt (l + 1) m (by omega)]; ring
    have hlast : PLM (n + 1) m * zonalFlow (n + 1) MMAX coeff (fun _ => 1) kl c (n + 1) m = 0 := by
      unfold zonalFlow; rw [if_neg (by omega), mul_zero]
    have hfirst : PLM 0 m * zonalFlow (n + 1) MMAX coeff (fun _ => 1) kl c 0 m = 0 := by
      unfold zonalFlow; rw [if_neg (by omega), mul_zero]
    have hAn : A n = 0 := by rw [hA]; simp only; rw [hq0 n (by omega)]; ring
    have hAn1 : A (n + 1) = 0 := by rw [hA]; simp only; rw [hq0 (n + 1) (by omega)]; ring
    rw [Finset.sum_range_succ', hfirst, add_zero, Finset.sum_range_succ, hlast, add_zero,
      Finset.sum_congr rfl (fun l hl => hf l (Finset.mem_range.1 hl)), ← Finset.mul_sum,
      Finset.sum_range_succ A, Finset.sum_range_succ A, hAn, hAn1, Finset.sum_range_succ' B, ← hB0,
      Finset.sum_sub_distrib]
    ring

/-- pressure of the surface mass with the given geoid coefficients: `g` times the mass per area
(dyn/cm^2), with degree factors `ρ_e R (2l+1)/(3 (1+k_l))` -/
noncomputable def pressure (E : Units.Earth) (kl : ℕ → ℝ) (LMAX MMAX : ℕ) (C S : ℕ → ℕ → ℝ) (t f : ℝ) : ℝ :=
  E.g_wmo * ∑ m ∈ Finset.range (MMAX + 1), ∑ l ∈ Finset.range (LMAX + 1),
    Units.rho_e E * Units.rad_e E * (2 * l + 1) / (1 + kl l) / 3 *
      (C l m * Real.cos (m * f) + S l m * Real.sin (m * f)) * Plm l m (Real.cos t) (Real.sin t)

/-- the constant of the code (harmonic_gradients.py:224) -/
noncomputable def currentCoeff (E : Units.Earth) (omega density : ℝ) : ℝ :=
  E.g_wmo * Units.rho_e E / (6 * omega * density)

/-- what the code returns as zonal current for coefficients up to two degrees below `LMAX` -/
theorem zonal_general (E : Units.Earth) (omega density : ℝ) (LMIN LMAX MMAX : ℕ) (kl : ℕ → ℝ)
    (C S PLM : ℕ → ℕ → ℝ) (th phi : ℝ) (hR : Units.rad_e E ≠ 0) (hu : Real.sin th ≠ 0)
    (hP : ∀ l ≤ LMAX, ∀ m ≤ MMAX, PLM l m = Plm l m (Real.cos th) (Real.sin th))
    (htop : ∀ l m, LMAX ≤ l + 1 → C l m = 0 ∧ S l m = 0) :
    ∃ dp, HasDerivAt (fun t => pressure E kl LMAX MMAX C S t phi) dp th ∧
      (currents LMIN LMAX MMAX (currentCoeff E omega density) (fun _ => 1) kl C S PLM th phi).1 =
        dp / (2 * omega * Real.cos th * density * Units.rad_e E) +
        currentCoeff E omega density * (2 * Real.sqrt 3 / (1 + kl 1) * C 1 0) / (Real.cos th * Real.sin th) := by
  have hd : HasDerivAt (fun t => pressure E kl LMAX MMAX C S t phi)
      (E.g_wmo * ∑ m ∈ Finset.range (MMAX + 1), ∑ l ∈ Finset.range (LMAX + 1),
        Units.rho_e E * Units.rad_e E * (2 * l + 1) / (1 + kl l) / 3 *
        (C l m * Real.cos (m * phi) + S l m * Real.sin (m * phi)) * Dlm (Real.cos th) (Real.sin th) l m) th := by
    unfold pressure
    apply HasDerivAt.const_mul
    apply HasDerivAt.fun_sum; intro m _
    apply HasDerivAt.fun_sum; intro l _
    exact (Plm_hasDerivAt l m th hu).const_mul _
  refine ⟨_, hd, ?_⟩
  unfold currents
  have hself : ∀ L c, selfAssign L LMAX c = c := by
    intro L c; funext l m; unfold selfAssign; split <;> rfl
  simp only [hself, sum_map_range]
  rw [← Finset.sum_add_distrib, Finset.mul_sum, Finset.sum_div]
  have hterm : ∀ m ∈ Finset.range (MMAX + 1),
      Real.cos (m * phi) * (1 / (Real.cos th * Real.sin th) *
          dSum LMAX PLM (zonalFlow LMAX MMAX (currentCoeff E omega density) (fun _ => 1) kl C) m) +
        Real.sin (m * phi) * (1 / (Real.cos th * Real.sin th) *
          dSum LMAX PLM (zonalFlow LMAX MMAX (currentCoeff E omega density) (fun _ => 1) kl S) m) =
      E.g_wmo * (∑ l ∈ Finset.range (LMAX + 1), Units.rho_e E * Units.rad_e E * (2 * l + 1) / (1 + kl l) / 3 *
        (C l m * Real.cos (m * phi) + S l m * Real.sin (m * phi)) * Dlm (Real.cos th) (Real.sin th) l m) /
        (2 * omega * Real.cos th * density * Units.rad_e E) +
      if m = 0 then currentCoeff E omega density * (2 * Real.sqrt 3 / (1 + kl 1) * C 1 0) /
        (Real.cos th * Real.sin th) else 0 := by
    intro m hm
    have hm' : m ≤ MMAX := by simpa [Nat.lt_succ_iff] using hm
    rw [zonal_order LMAX MMAX _ kl C PLM m hm' (Real.cos th) (Real.sin th) hu (fun l hl => hP l hl m hm')
      (fun l hl => (htop l m hl).1),
      zonal_order LMAX MMAX _ kl S PLM m hm' (Real.cos th) (Real.sin th) hu (fun l hl => hP l hl m hm')
      (fun l hl => (htop l m hl).2)]
    have hmain : Real.cos (m * phi) * (1 / (Real.cos th * Real.sin th) * (currentCoeff E omega density *
          ∑ l ∈ Finset.range (LMAX + 1), (2 * l + 1) / (1 + kl l) * C l m * (Real.sin th * Dlm (Real.cos th) (Real.sin th) l m))) +
        Real.sin (m * phi) * (1 / (Real.cos th * Real.sin th) * (currentCoeff E omega density *
          ∑ l ∈ Finset.range (LMAX + 1), (2 * l + 1) / (1 + kl l) * S l m * (Real.sin th * Dlm (Real.cos th) (Real.sin th) l m))) =
        E.g_wmo * (∑ l ∈ Finset.range (LMAX + 1), Units.rho_e E * Units.rad_e E * (2 * l + 1) / (1 + kl l) / 3 *
          (C l m * Real.cos (m * phi) + S l m * Real.sin (m * phi)) * Dlm (Real.cos th) (Real.sin th) l m) /
          (2 * omega * Real.cos th * density * Units.rad_e E) := by
      simp only [Finset.mul_sum, Finset.sum_div]
      rw [← Finset.sum_add_distrib]
      refine Finset.sum_congr rfl fun l _ => ?_
      unfold currentCoeff
      by_cases hc : Real.cos th = 0
      · rw [hc]; simp
      · field_simp
        ring
    rw [← hmain]
    by_cases hm0 : m = 0
    · subst hm0
      simp only [↓reduceIte, Nat.cast_zero, zero_mul, Real.cos_zero, Real.sin_zero]
      ring
    · simp only [if_neg hm0]
      ring
  rw [Finset.sum_congr rfl hterm, Finset.sum_add_distrib, Finset.sum_ite_eq' (Finset.range (MMAX + 1)) 0,
    if_pos (by simp)]

/-- C62: the zonal current is the geostrophic current of the pressure field: `p_θ / (2 Ω cosθ ρ R)`, at
every point off the equator and the poles, for coefficients without degree-1 zonal term and up to two
degrees below `LMAX` (no smoothing) -/
theorem zonal_geostrophic (E : Units.Earth) (omega density : ℝ) (LMIN LMAX MMAX : ℕ) (kl : ℕ → ℝ)
    (C S PLM : ℕ → ℕ → ℝ) (th phi : ℝ) (hR : Units.rad_e E ≠ 0) (hu : Real.sin th ≠ 0)
    (hP : ∀ l ≤ LMAX, ∀ m ≤ MMAX, PLM l m = Plm l m (Real.cos th) (Real.sin th))
    (htop : ∀ l m, LMAX ≤ l + 1 → C l m = 0 ∧ S l m = 0) (h10 : C 1 0 = 0) :
    ∃ dp, HasDerivAt (fun t => pressure E kl LMAX MMAX C S t phi) dp th ∧
      (currents LMIN LMAX MMAX (currentCoeff E omega density) (fun _ => 1) kl C S PLM th phi).1 =
        dp / (2 * omega * Real.cos th * density * Units.rad_e E) := by
  obtain ⟨dp, h1, h2⟩ := zonal_general E omega density LMIN LMAX MMAX kl C S PLM th phi hR hu hP htop
  refine ⟨dp, h1, h2.trans ?_⟩
  rw [h10]; ring

/-- C62: a degree-1 zonal coefficient makes the zonal current wrong by
`2 sqrt 3 C10 g ρ_e / (6 Ω ρ (1+k_1) cosθ sinθ)`, at every point off the equator and the poles: the
constant part of its derivative is left out -/
theorem zonal_degree_one_wrong (E : Units.Earth) (omega density : ℝ) (LMIN LMAX MMAX : ℕ) (kl : ℕ → ℝ)
    (C S PLM : ℕ → ℕ → ℝ) (th phi dp : ℝ) (hR : Units.rad_e E ≠ 0) (hu : Real.sin th ≠ 0)
    (hP : ∀ l ≤ LMAX, ∀ m ≤ MMAX, PLM l m = Plm l m (Real.cos th) (Real.sin th))
    (htop : ∀ l m, LMAX ≤ l + 1 → C l m = 0 ∧ S l m = 0)
    (hd : HasDerivAt (fun t => pressure E kl LMAX MMAX C S t phi) dp th)
    (hc : Real.cos th ≠ 0) (hE : currentCoeff E omega density ≠ 0) (hk : 1 + kl 1 ≠ 0) (h10 : C 1 0 ≠ 0) :
    (currents LMIN LMAX MMAX (currentCoeff E omega density) (fun _ => 1) kl C S PLM th phi).1 ≠
        dp / (2 * omega * Real.cos th * density * Units.rad_e E) := by
  obtain ⟨dp', h1, h2⟩ := zonal_general E omega density LMIN LMAX MMAX kl C S PLM th phi hR hu hP htop
  obtain rfl := hd.unique h1
  rw [h2]
  have h3 : Real.sqrt 3 ≠ 0 := by positivity
  have : currentCoeff E omega density * (2 * Real.sqrt 3 / (1 + kl 1) * C 1 0) / (Real.cos th * Real.sin th) ≠ 0 := by
    positivity
  intro h
  exact this (by linarith)

/-- C62: the meridional current is the southward geostrophic current `-p_φ / (2 Ω cosθ ρ R sinθ)` of the
same pressure field, for every coefficient array (no smoothing) -/
theorem meridional_geostrophic (E : Units.Earth) (omega density : ℝ) (LMIN LMAX MMAX : ℕ) (kl : ℕ → ℝ)
    (C S PLM : ℕ → ℕ → ℝ) (th phi : ℝ) (hR : Units.rad_e E ≠ 0)
    (hP : ∀ l ≤ LMAX, ∀ m ≤ MMAX, PLM l m = Plm l m (Real.cos th) (Real.sin th)) :
    ∃ dp, HasDerivAt (fun f => pressure E kl LMAX MMAX C S th f) dp phi ∧
      (currents LMIN LMAX MMAX (currentCoeff E omega density) (fun _ => 1) kl C S PLM th phi).2 =
        -dp / (2 * omega * Real.cos th * density * Units.rad_e E * Real.sin th) := by
  have hd : HasDerivAt (fun f => pressure E kl LMAX MMAX C S th f)
      (E.g_wmo * ∑ m ∈ Finset.range (MMAX + 1), ∑ l ∈ Finset.range (LMAX + 1),
        Units.rho_e E * Units.rad_e E * (2 * l + 1) / (1 + kl l) / 3 *
        (C l m * (-Real.sin (m * phi) * m) + S l m * (Real.cos (m * phi) * m)) *
          Plm l m (Real.cos th) (Real.sin th)) phi := by
    unfold pressure
    apply HasDerivAt.const_mul
    apply HasDerivAt.fun_sum; intro m _
    apply HasDerivAt.fun_sum; intro l _
    have hlin : HasDerivAt (fun f : ℝ => (m : ℝ) * f) m phi := by
      simpa using (hasDerivAt_id phi).const_mul (m : ℝ)
    exact (((hlin.cos.const_mul (C l m)).add (hlin.sin.const_mul (S l m))).const_mul _).mul_const _
  refine ⟨_, hd, ?_⟩
  unfold currents
  have hself : ∀ L c, selfAssign L LMAX c = c := by
    intro L c; funext l m; unfold selfAssign; split <;> rfl
  simp only [hself, sum_map_range, dSum]
  rw [← Finset.sum_add_distrib, Finset.mul_sum, ← Finset.sum_neg_distrib, Finset.sum_div]
  refine Finset.sum_congr rfl fun m hm => ?_
  have hm' : m ≤ MMAX := by simpa [Nat.lt_succ_iff] using hm
  simp only [Finset.mul_sum, ← Finset.sum_neg_distrib, Finset.sum_div]
  rw [← Finset.sum_add_distrib]
  refine Finset.sum_congr rfl fun l hl => ?_
  have hl' : l ≤ LMAX := by simpa [Nat.lt_succ_iff] using hl
  rw [hP l hl' m hm']
  by_cases hlm : m ≤ l
  · unfold meridFlow currentCoeff
    rw [if_pos ⟨hl', by omega⟩, if_pos ⟨hl', by omega⟩]
    by_cases hc : Real.cos th = 0
    · rw [hc]; simp
    by_cases hs : Real.sin th = 0
    · rw [hs]; simp
    field_simp
    ring
  · rw [Plm_zero_of_lt l m (by omega)]; ring

/-- the hypotheses are met: degree 2 order 1 in an expansion to degree 4, at 45 degrees, on the default Earth -/
example : ∃ dp, HasDerivAt (fun t => pressure Units.Earth.default (fun _ => 0) 4 4
      (fun l m => if l = 2 ∧ m = 1 then 1 else 0) (fun _ _ => 0) t 0) dp (Real.pi / 4) := by
  have hr : Units.rad_e Units.Earth.default ≠ 0 := by
    unfold Units.rad_e Units.Earth.default
    exact (mul_pos (by norm_num) (Real.rpow_pos_of_pos (by norm_num) _)).ne'
  have hs : Real.sin (Real.pi / 4) ≠ 0 := by rw [Real.sin_pi_div_four]; positivity
  obtain ⟨dp, h, -⟩ := zonal_geostrophic Units.Earth.default 7292115e-11 1.035 0 4 4 (fun _ => 0)
    (fun l m => if l = 2 ∧ m = 1 then 1 else 0) (fun _ _ => 0)
    (fun l m => Plm l m (Real.cos (Real.pi / 4)) (Real.sin (Real.pi / 4))) (Real.pi / 4) 0 hr hs
    (fun _ _ _ _ => rfl) (fun l m h => ⟨if_neg (by omega), rfl⟩) (by simp)
  exact ⟨dp, h⟩

/-- C62: Gaussian smoothing weights multiply the harmonics of both components -/
theorem flow_smoothed (LMAX MMAX : ℕ) (coeff sgn : ℝ) (wl kl : ℕ → ℝ) (c : ℕ → ℕ → ℝ) (l m : ℕ) :
    zonalFlow LMAX MMAX coeff wl kl c l m = wl l * zonalFlow LMAX MMAX coeff (fun _ => 1) kl c l m ∧
    meridFlow LMAX MMAX coeff sgn wl kl c l m = wl l * meridFlow LMAX MMAX coeff sgn (fun _ => 1) kl c l m := by
  unfold zonalFlow meridFlow
  constructor <;> split <;> ring

end Verif.Synthesis
