import Verif.Legendre.Spec
import Mathlib.Analysis.Calculus.Deriv.Polynomial
import Mathlib.Topology.Algebra.Polynomial
import Mathlib.MeasureTheory.Integral.IntervalIntegral.FundThmCalculus
import Mathlib.Analysis.SpecialFunctions.Integrals.Basic
import Mathlib.MeasureTheory.Integral.IntervalIntegral.IntegrationByParts

/-!
# Orthogonality of the fully normalised associated Legendre functions

Proved from Rodrigues' formula (`Verif.Legendre.Spec`): the differential equation, integration by
parts, and the normalisation.
-/
namespace Verif.Legendre
open Polynomial Nat

/-- integral of a polynomial over [-1,1] -/
noncomputable def J (p : ℝ[X]) : ℝ := ∫ x in (-1 : ℝ)..1, p.eval x

theorem J_add (p q : ℝ[X]) : J (p + q) = J p + J q := by
  unfold J
  simp only [eval_add]
  exact intervalIntegral.integral_add (p.continuous.intervalIntegrable _ _)
    (q.continuous.intervalIntegrable _ _)

theorem J_C_mul (c : ℝ) (p : ℝ[X]) : J (C c * p) = c * J p := by
  unfold J
  simp only [eval_mul, eval_C]
  exact intervalIntegral.integral_const_mul _ _

theorem J_derivative (p : ℝ[X]) : J (derivative p) = p.eval 1 - p.eval (-1) := by
  unfold J
  exact intervalIntegral.integral_eq_sub_of_hasDerivAt (fun x _ => p.hasDerivAt x)
    ((derivative p).continuous.intervalIntegrable _ _)

/-- `d^m P_l / dx^m` as a polynomial -/
noncomputable def D (l m : ℕ) : ℝ[X] := derivative^[m] (legendreP l)

theorem D_eval (l m : ℕ) (x : ℝ) : (D l m).eval x = dLeg l m x := rfl

theorem D_succ (l m : ℕ) : D l (m + 1) = derivative (D l m) := by
  unfold D; rw [Function.iterate_succ_apply']

/-- `x P_{l+1}^{(m+1)} - P_l^{(m+1)} = (l+1-m) P_{l+1}^{(m)}` -/
theorem dLeg_x_sub (l m : ℕ) (x : ℝ) :
    x * dLeg (l + 1) (m + 1) x - dLeg l (m + 1) x = (l + 1 - m) * dLeg (l + 1) m x := by
  have hb : ∀ l, below l (m + 1) x = dLeg l m x := by
    intro l; rw [below, dLeg_T]; rfl
  have h1 := dLeg_below (l + 1) (m + 1) x
  have h2 := dLeg_below' l (m + 1) x
  rw [hb] at h1 h2
  push_cast at h1 h2
  linear_combination h2 - h1

/-- the (differentiated) Legendre differential equation -/
theorem dLeg_ode (l m : ℕ) (x : ℝ) :
    (1 - x ^ 2) * dLeg l (m + 2) x - 2 * (m + 1) * x * dLeg l (m + 1) x +
      (l - m) * (l + m + 1) * dLeg l m x = 0 := by
  cases l with
  | zero =>
    rw [dLeg_zero_of_lt 0 (m + 2) (by omega), dLeg_zero_of_lt 0 (m + 1) (by omega)]
    rcases Nat.eq_zero_or_pos m with h | h
    · subst h; simp
    · rw [dLeg_zero_of_lt 0 m h]; ring
  | succ l =>
    have h1 := dLeg_deriv l (m + 1) x
    have h2 := dLeg_x_sub l m x
    push_cast at h1 ⊢
    linear_combination -h1 - (l + 2 + m : ℝ) * h2

/-- weighted form: `((1-x^2)^(m+1) P^{(m+1)})' = -(l-m)(l+m+1)(1-x^2)^m P^{(m)}` -/
theorem D_sturm (l m : ℕ) :
    derivative ((1 - X ^ 2) ^ (m + 1) * D l (m + 1)) =
      C (-((l - m) * (l + m + 1) : ℝ)) * ((1 - X ^ 2) ^ m * D l m) := by
  apply Polynomial.funext
  intro x
  have h := dLeg_ode l m x
  rw [derivative_mul, ← D_succ, derivative_pow]
  simp only [eval_mul, eval_add, eval_pow, eval_C, eval_sub, eval_X, eval_one, D_eval, derivative_sub,
    derivative_one, derivative_pow, derivative_X, eval_natCast, Nat.add_sub_cancel, eval_zero, map_natCast]
  push_cast
  linear_combination (1 - x ^ 2) ^ m * h

/-- `∫ (1-x^2)^m P_l^{(m)} P_k^{(m)}` -/
noncomputable def I3 (l k m : ℕ) : ℝ := J ((1 - X ^ 2) ^ m * D l m * D k m)

theorem I3_comm (l k m : ℕ) : I3 l k m = I3 k l m := by
  unfold I3; congr 1; ring

theorem I3_succ (l k m : ℕ) : I3 l k (m + 1) = (l - m) * (l + m + 1) * I3 l k m := by
  have h := J_derivative ((1 - X ^ 2) ^ (m + 1) * D l (m + 1) * D k m)
  rw [derivative_mul, D_sturm, J_add, ← D_succ] at h
  have e : C (-((l - m) * (l + m + 1) : ℝ)) * ((1 - X ^ 2) ^ m * D l m) * D k m =
      C (-((l - m) * (l + m + 1) : ℝ)) * ((1 - X ^ 2) ^ m * D l m * D k m) := by ring
  rw [e, J_C_mul] at h
  simp only [eval_mul, eval_pow, eval_sub, eval_one, eval_X] at h
  have e1 : (1 - (1:ℝ) ^ 2) = 0 := by norm_num
  have e2 : (1 - (-1:ℝ) ^ 2) = 0 := by norm_num
  rw [e1, e2, zero_pow (by omega)] at h
  unfold I3
  linarith

theorem I3_orthogonal (l k m : ℕ) (h : l ≠ k) : I3 l k m = 0 := by
  have h0 : I3 l k 0 = 0 := by
    have h1 := I3_succ l k 0
    have h2 := I3_succ k l 0
    rw [I3_comm k l, I3_comm k l] at h2
    rw [h1] at h2
    have h3 : ((l : ℝ) - k) * (l + k + 1) * I3 l k 0 = 0 := by
      push_cast at h2
      linear_combination h2
    have h4 : ((l : ℝ) - k) ≠ 0 := by
      intro hh; exact h (by exact_mod_cast sub_eq_zero.1 hh)
    have h5 : ((l : ℝ) + k + 1) ≠ 0 := by positivity
    rcases mul_eq_zero.1 h3 with h6 | h6
    · rcases mul_eq_zero.1 h6 with h7 | h7 <;> contradiction
    · exact h6
  induction m with
  | zero => exact h0
  | succ m ih => rw [I3_succ, ih, mul_zero]

theorem D_rec (l : ℕ) :
    C (l + 2 : ℝ) * D (l + 2) 0 = C (2 * l + 3 : ℝ) * (X * D (l + 1) 0) - C (l + 1 : ℝ) * D l 0 := by
  apply Polynomial.funext
  intro x
  have h := dLeg_rec l 0 x
  simp only [eval_mul, eval_C, eval_sub, eval_X, D_eval]
  push_cast at h
  linear_combination h

/-- `∫ P_l^2 = 2/(2l+1)` -/
theorem I3_norm (l : ℕ) : I3 l l 0 = 2 / (2 * l + 1) := by
  have h00 : I3 0 0 0 = 2 := by
    unfold I3 J
    simp only [eval_mul, D_eval, dLeg_zero_zero, pow_zero, eval_one]
    norm_num
  have step : ∀ l : ℕ, (2 * l + 3 : ℝ) * I3 (l + 1) (l + 1) 0 = (2 * l + 1) * I3 l l 0 := by
    intro l
    cases l with
    | zero =>
      rw [h00]
      unfold I3 J
      simp only [eval_mul, D_eval, pow_zero, eval_one, Nat.zero_add, dLeg_one_zero]
      have : ∀ x : ℝ, 1 * x * x = x ^ 2 := fun x => by ring
      simp only [this, integral_pow]
      norm_num
    | succ l =>
      -- (l+2)|P_{l+2}|^2 = (2l+3) <x P_{l+1}, P_{l+2}>
      have a1 : (l + 2 : ℝ) * I3 (l + 2) (l + 2) 0 = (2 * l + 3) * J (X * D (l + 1) 0 * D (l + 2) 0) -
          (l + 1) * I3 l (l + 2) 0 := by
        have e : ∀ p : ℝ[X], (1 - X ^ 2) ^ 0 * p = p := fun p => by rw [pow_zero, one_mul]
        unfold I3
        rw [e, e, ← J_C_mul, ← J_C_mul, ← J_C_mul]
        have : C (2 * l + 3 : ℝ) * (X * D (l + 1) 0 * D (l + 2) 0) =
            C (l + 2 : ℝ) * (D (l + 2) 0 * D (l + 2) 0) + C (l + 1 : ℝ) * (D l 0 * D (l + 2) 0) := by
          have := D_rec l
          linear_combination (-D (l + 2) 0) * this
        rw [this, J_add]; ring
      -- (l+3) P_{l+3} tested with P_{l+1}
      have a2 : (l + 3 : ℝ) * I3 (l + 3) (l + 1) 0 = (2 * l + 5) * J (X * D (l + 1) 0 * D (l + 2) 0) -
          (l + 2) * I3 (l + 1) (l + 1) 0 := by
        have e : ∀ p : ℝ[X], (1 - X ^ 2) ^ 0 * p = p := fun p => by rw [pow_zero, one_mul]
        unfold I3
        rw [e, e, ← J_C_mul, ← J_C_mul, ← J_C_mul]
        have : C (2 * l + 5 : ℝ) * (X * D (l + 1) 0 * D (l + 2) 0) =
            C (l + 3 : ℝ) * (D (l + 3) 0 * D (l + 1) 0) + C (l + 2 : ℝ) * (D (l + 1) 0 * D (l + 1) 0) := by
          have := D_rec (l + 1)
          push_cast at this
          rw [show (l : ℝ) + 1 + 2 = l + 3 by ring, show 2 * ((l : ℝ) + 1) + 3 = 2 * l + 5 by ring,
            show (l : ℝ) + 1 + 1 = l + 2 by ring] at this
          linear_combination (-D (l + 1) 0) * this
        rw [this, J_add]; ring
      rw [I3_orthogonal l (l + 2) 0 (by omega)] at a1
      rw [I3_orthogonal (l + 3) (l + 1) 0 (by omega)] at a2
      have h2 : (l + 2 : ℝ) ≠ 0 := by positivity
      apply mul_left_cancel₀ h2
      push_cast
      linear_combination (2 * (l : ℝ) + 5) * a1 - (2 * l + 3) * a2
  induction l with
  | zero => rw [h00]; norm_num
  | succ l ih =>
    have := step l
    rw [ih] at this
    have h1 : (2 * l + 1 : ℝ) ≠ 0 := by positivity
    have h2 : (2 * l + 3 : ℝ) ≠ 0 := by positivity
    push_cast
    rw [show (2 * ((l:ℝ) + 1) + 1) = 2 * l + 3 by ring]
    field_simp at this ⊢
    linarith

/-- `∫ (1-x^2)^m (P_l^{(m)})^2 = 2/(2l+1) (l+m)!/(l-m)!` -/
theorem I3_norm_order (j m : ℕ) :
    I3 (m + j) (m + j) m = 2 / (2 * (m + j) + 1) * ((2 * m + j)! / j !) := by
  induction m generalizing j with
  | zero =>
    have := I3_norm (0 + j)
    rw [this]
    have : (j ! : ℝ) ≠ 0 := by positivity
    simp [this]
  | succ m ih =>
    rw [I3_succ, show m + 1 + j = m + (j + 1) by ring, ih (j + 1), factorial_succ j,
      show 2 * (m + 1) + j = 2 * m + (j + 1) + 1 by ring, factorial_succ (2 * m + (j + 1))]
    push_cast
    have : (j ! : ℝ) ≠ 0 := by positivity
    have h2 : (j + 1 : ℝ) ≠ 0 := by positivity
    have h3 : (2 * (m + (j + 1)) + 1 : ℝ) ≠ 0 := by positivity
    have h4 : (2 * ((m:ℝ) + 1 + j) + 1 : ℝ) ≠ 0 := by positivity
    have e : (2 * ((m:ℝ) + 1 + j) + 1 : ℝ) = 2 * (m + (j + 1)) + 1 := by ring
    rw [e]
    field_simp
    ring

/-- substitution `x = cos θ` -/
theorem integral_cos_sub (f : ℝ → ℝ) (hf : Continuous f) :
    ∫ t in (0 : ℝ)..Real.pi, f (Real.cos t) * Real.sin t = ∫ x in (-1 : ℝ)..1, f x := by
  have h := intervalIntegral.integral_comp_mul_deriv (a := 0) (b := Real.pi) (f := Real.cos)
    (f' := fun t => -Real.sin t) (g := f) (fun x _ => Real.hasDerivAt_cos x)
    (by fun_prop) hf
  rw [Real.cos_zero, Real.cos_pi, intervalIntegral.integral_symm (-1) 1] at h
  rw [← neg_inj, ← h, ← intervalIntegral.integral_neg]
  congr 1
  funext t
  simp

/-- Orthogonality and normalisation on the sphere: over the colatitude the fully normalised
functions of one order are orthogonal and have integral 2 (order 0) or 4 (other orders). -/
theorem Plm_orthogonal (l k m : ℕ) (hl : m ≤ l) :
    ∫ t in (0 : ℝ)..Real.pi, Plm l m (Real.cos t) (Real.sin t) * Plm k m (Real.cos t) (Real.sin t) *
      Real.sin t = if l = k then 2 * dlt m else 0 := by
  have e : ∀ t : ℝ, Plm l m (Real.cos t) (Real.sin t) * Plm k m (Real.cos t) (Real.sin t) *
      Real.sin t = (fun x => nrm l m * nrm k m * ((1 - X ^ 2) ^ m * D l m * D k m).eval x) (Real.cos t) *
        Real.sin t := by
    intro t
    have hs : 1 - Real.cos t ^ 2 = Real.sin t ^ 2 := by
      have := Real.sin_sq_add_cos_sq t; linarith
    simp only [eval_mul, eval_pow, eval_sub, eval_one, eval_X, D_eval, hs, Plm]
    rw [← pow_mul, mul_comm 2 m, pow_mul]
    ring
  refine (intervalIntegral.integral_congr (fun t _ => e t)).trans ?_
  refine (integral_cos_sub (fun x => nrm l m * nrm k m * ((1 - X ^ 2) ^ m * D l m * D k m).eval x)
    (by fun_prop)).trans ?_
  rw [intervalIntegral.integral_const_mul]
  change nrm l m * nrm k m * I3 l k m = _
  by_cases h : l = k
  · subst h
    obtain ⟨j, rfl⟩ := Nat.exists_eq_add_of_le hl
    have hn : nrm (m + j) m * nrm (m + j) m = dlt m * (2 * (m + j) + 1) * j ! / (2 * m + j)! := by
      rw [nrm_add]
      apply Real.mul_self_sqrt
      have := dlt_pos m
      positivity
    rw [if_pos rfl, hn, I3_norm_order]
    have : (j ! : ℝ) ≠ 0 := by positivity
    have h2 : ((2 * m + j)! : ℝ) ≠ 0 := by positivity
    have h3 : (2 * ((m:ℝ) + j) + 1 : ℝ) ≠ 0 := by positivity
    field_simp
  · rw [if_neg h, I3_orthogonal l k m h, mul_zero]

end Verif.Legendre
