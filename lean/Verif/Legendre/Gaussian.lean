import Verif.Legendre.Orthogonal
import Verif.Legendre.Props
import Mathlib.Analysis.SpecialFunctions.ExpDeriv
import Mathlib.MeasureTheory.Integral.IntervalIntegral.FundThmCalculus

/-!
# Specification: Legendre coefficients of the Gaussian `exp(-b (1 - cos α))`

`gaussLeg b l = ∫_{-1}^{1} P_l(x) exp(-b (1-x)) dx`.  Closed forms of degrees 0 and 1, the three term
recursion, positivity and strict decrease in the degree, all from Rodrigues' formula.
-/
namespace Verif.Legendre
open Polynomial Nat

/-- Legendre coefficient of degree `l` of the Gaussian of parameter `b` -/
noncomputable def gaussLeg (b : ℝ) (l : ℕ) : ℝ :=
  ∫ x in (-1 : ℝ)..1, dLeg l 0 x * Real.exp (-b * (1 - x))

/-- a polynomial tested with the Gaussian -/
noncomputable def K (b : ℝ) (p : ℝ[X]) : ℝ := ∫ x in (-1 : ℝ)..1, p.eval x * Real.exp (-b * (1 - x))

theorem gaussLeg_K (b : ℝ) (l : ℕ) : gaussLeg b l = K b (D l 0) := rfl

theorem K_add (b : ℝ) (p q : ℝ[X]) : K b (p + q) = K b p + K b q := by
  unfold K
  rw [← intervalIntegral.integral_add ((by fun_prop : Continuous _).intervalIntegrable _ _)
    ((by fun_prop : Continuous _).intervalIntegrable _ _)]
  congr 1; funext x; rw [eval_add]; ring

theorem K_C_mul (b c : ℝ) (p : ℝ[X]) : K b (C c * p) = c * K b p := by
  unfold K
  rw [← intervalIntegral.integral_const_mul]
  congr 1; funext x; rw [eval_mul, eval_C]; ring

theorem K_sub (b : ℝ) (p q : ℝ[X]) : K b (p - q) = K b p - K b q := by
  have := K_add b p (C (-1) * q)
  rw [K_C_mul] at this
  rw [show p - q = p + C (-1) * q by rw [map_neg, map_one]; ring, this]; ring

/-- integration by parts -/
theorem K_derivative (b : ℝ) (p : ℝ[X]) :
    K b (derivative p) = p.eval 1 - p.eval (-1) * Real.exp (-2 * b) - b * K b p := by
  have hd : ∀ x : ℝ, HasDerivAt (fun x => p.eval x * Real.exp (-b * (1 - x)))
      ((derivative p).eval x * Real.exp (-b * (1 - x)) + b * (p.eval x * Real.exp (-b * (1 - x)))) x := by
    intro x
    have h1 := p.hasDerivAt x
    have h2 : HasDerivAt (fun x : ℝ => -b * (1 - x)) b x := by
      refine (((hasDerivAt_id x).const_sub 1).const_mul (-b)).congr_deriv ?_
      ring
    refine (h1.mul h2.exp).congr_deriv ?_
    ring
  have h := intervalIntegral.integral_eq_sub_of_hasDerivAt (a := -1) (b := 1) (fun x _ => hd x)
    ((by fun_prop : Continuous _).intervalIntegrable _ _)
  rw [intervalIntegral.integral_add ((by fun_prop : Continuous _).intervalIntegrable _ _)
    ((by fun_prop : Continuous _).intervalIntegrable _ _), intervalIntegral.integral_const_mul] at h
  have e1 : -b * (1 - 1) = 0 := by ring
  have e2 : -b * (1 - (-1)) = -2 * b := by ring
  rw [e1, e2, Real.exp_zero, mul_one] at h
  unfold K
  linarith

theorem T_end (l k : ℕ) (h : k < l) (x : ℝ) (hx : x ^ 2 = 1) : (T l k).eval x = 0 := by
  induction l generalizing k with
  | zero => omega
  | succ l ih =>
    cases k with
    | zero => simp [T, hx]
    | succ k =>
      rw [T_succ]
      simp only [eval_mul, eval_add, eval_C, eval_X, eval_natCast]
      rw [ih k (by omega)]
      cases k with
      | zero => simp
      | succ k => rw [Nat.add_sub_cancel, ih k (by omega)]; ring

/-- degree 0 in closed form -/
theorem gaussLeg_zero (b : ℝ) (hb : b ≠ 0) : gaussLeg b 0 = (1 - Real.exp (-2 * b)) / b := by
  have h := K_derivative b (1 : ℝ[X])
  rw [derivative_one] at h
  have h0 : K b 0 = 0 := by unfold K; simp
  have h1 : K b 1 = gaussLeg b 0 := by unfold K gaussLeg; simp [dLeg_zero_zero]
  rw [h0, h1] at h
  simp only [eval_one] at h
  rw [eq_div_iff hb]
  linarith

/-- degree 1 in closed form -/
theorem gaussLeg_one (b : ℝ) (hb : b ≠ 0) :
    gaussLeg b 1 = (1 + Real.exp (-2 * b)) / b - (1 - Real.exp (-2 * b)) / b ^ 2 := by
  have h := K_derivative b (X : ℝ[X])
  rw [derivative_X] at h
  have h1 : K b 1 = gaussLeg b 0 := by unfold K gaussLeg; simp [dLeg_zero_zero]
  have h2 : K b X = gaussLeg b 1 := by unfold K gaussLeg; simp [dLeg_one_zero]
  rw [h1, h2, gaussLeg_zero b hb] at h
  simp only [eval_X] at h
  field_simp at h ⊢
  linarith

theorem D_next (l : ℕ) : derivative (D (l + 2) 0 - D l 0) = C (2 * l + 3 : ℝ) * D (l + 1) 0 := by
  apply Polynomial.funext
  intro x
  rw [derivative_sub, ← D_succ, ← D_succ]
  simp only [eval_sub, eval_mul, eval_C, D_eval, Nat.zero_add]
  rw [dLeg_T, dLeg_T, dLeg_T, show l + 2 + 1 = (l + 1) + 2 from rfl, T_two (l + 1) (l + 1)]
  simp only [eval_mul, eval_add, eval_C, Nat.add_sub_cancel, factorial_succ, pow_succ, Nat.add_zero]
  push_cast
  have : (l ! : ℝ) ≠ 0 := by positivity
  have : (l + 1 : ℝ) ≠ 0 := by positivity
  have : (l + 1 + 1 : ℝ) ≠ 0 := by positivity
  field_simp
  ring

/-- the recursion of the code holds for the exact coefficients -/
theorem gaussLeg_rec (b : ℝ) (hb : b ≠ 0) (l : ℕ) (hl : 2 ≤ l) :
    gaussLeg b l = (1 - 2 * l) / b * gaussLeg b (l - 1) + gaussLeg b (l - 2) := by
  obtain ⟨k, rfl⟩ := Nat.exists_eq_add_of_le' hl
  rw [show k + 2 - 1 = k + 1 from rfl, show k + 2 - 2 = k from rfl]
  have h := K_derivative b (D (k + 2) 0 - D k 0)
  rw [D_next, K_C_mul, K_sub, ← gaussLeg_K, ← gaussLeg_K, ← gaussLeg_K] at h
  simp only [eval_sub, D_eval] at h
  rw [dLeg_at_pole _ 1 (by norm_num), dLeg_at_pole _ 1 (by norm_num), dLeg_at_pole _ (-1) (by norm_num),
    dLeg_at_pole _ (-1) (by norm_num)] at h
  rw [one_pow, one_pow, show ((-1 : ℝ)) ^ (k + 2) = (-1) ^ k by rw [pow_add]; norm_num] at h
  have h' : gaussLeg b (k + 2) = -(2 * k + 3) / b * gaussLeg b (k + 1) + gaussLeg b k := by
    field_simp
    linarith
  rw [h']
  push_cast
  ring

/-- `l` integrations by parts move all derivatives on the Gaussian -/
theorem K_iterate (b : ℝ) (q : ℝ[X]) : ∀ k : ℕ,
    (∀ j < k, (derivative^[j] q).eval 1 = 0 ∧ (derivative^[j] q).eval (-1) = 0) →
    K b (derivative^[k] q) = (-b) ^ k * K b q := by
  intro k
  induction k with
  | zero => intro _; simp
  | succ k ih =>
    intro h
    rw [Function.iterate_succ_apply', K_derivative, (h k (by omega)).1, (h k (by omega)).2,
      ih (fun j hj => h j (by omega)), pow_succ]
    ring

theorem K_pos (b : ℝ) (p : ℝ[X]) (h : ∀ x ∈ Set.Ioo (-1 : ℝ) 1, 0 < p.eval x) : 0 < K b p := by
  unfold K
  apply intervalIntegral.intervalIntegral_pos_of_pos_on ((by fun_prop : Continuous _).intervalIntegrable _ _)
  · intro x hx; exact mul_pos (h x hx) (Real.exp_pos _)
  · norm_num

/-- every exact coefficient is positive -/
theorem gaussLeg_pos (b : ℝ) (hb : 0 < b) (l : ℕ) : 0 < gaussLeg b l := by
  have h := K_iterate b ((X ^ 2 - 1) ^ l) l
    (fun j hj => ⟨T_end l j hj 1 (by norm_num), T_end l j hj (-1) (by norm_num)⟩)
  have e : gaussLeg b l = 1 / (2 ^ l * l !) * K b (derivative^[l] ((X ^ 2 - 1) ^ l)) := by
    rw [← K_C_mul]; rfl
  have e2 : (-b) ^ l * K b ((X ^ 2 - 1) ^ l) = b ^ l * K b ((1 - X ^ 2) ^ l) := by
    rw [neg_pow, mul_comm ((-1 : ℝ) ^ l), mul_assoc, ← K_C_mul]
    congr 2
    rw [map_pow, map_neg, map_one, ← mul_pow]
    congr 1; ring
  rw [e, h, e2]
  have hk := K_pos b ((1 - X ^ 2) ^ l) (by
    intro x hx
    simp only [eval_pow, eval_sub, eval_one, eval_X]
    have : x ^ 2 < 1 := by nlinarith [hx.1, hx.2]
    exact pow_pos (by linarith) _)
  have : (0 : ℝ) < l ! := by positivity
  positivity

/-- the exact coefficients decrease strictly with the degree -/
theorem gaussLeg_succ_lt (b : ℝ) (hb : 0 < b) (l : ℕ) : gaussLeg b (l + 1) < gaussLeg b l := by
  -- P_l - P_{l+1} = (1/(2^l l!)) d^l/dx^l [(1-x)(x^2-1)^l]
  have hit : ∀ j, derivative^[j] ((1 - X) * (X ^ 2 - 1 : ℝ[X]) ^ l) = (1 - X) * T l j - (j : ℝ[X]) * T l (j - 1) := by
    intro j
    have : (1 - X) * (X ^ 2 - 1 : ℝ[X]) ^ l = (X ^ 2 - 1 : ℝ[X]) ^ l - (X ^ 2 - 1 : ℝ[X]) ^ l * X := by ring
    rw [this, iterate_derivative_sub, iterate_derivative_mul_X, nsmul_eq_mul]
    unfold T
    ring
  have hP : D l 0 - D (l + 1) 0 = C (1 / (2 ^ l * l ! : ℝ)) * derivative^[l] ((1 - X) * (X ^ 2 - 1 : ℝ[X]) ^ l) := by
    apply Polynomial.funext
    intro x
    rw [hit l]
    simp only [eval_sub, eval_mul, eval_C, D_eval, eval_one, eval_X, eval_natCast]
    rw [dLeg_T, dLeg_T, Nat.add_zero, Nat.add_zero, T_succ]
    simp only [eval_mul, eval_add, eval_C, eval_X, eval_natCast, factorial_succ, pow_succ]
    push_cast
    have : (l ! : ℝ) ≠ 0 := by positivity
    have : (l + 1 : ℝ) ≠ 0 := by positivity
    field_simp
    ring
  have h := K_iterate b ((1 - X) * (X ^ 2 - 1) ^ l) l (by
    intro j hj
    rw [hit j]
    simp only [eval_sub, eval_mul, eval_one, eval_X, eval_natCast]
    rw [T_end l j hj 1 (by norm_num), T_end l j hj (-1) (by norm_num),
      T_end l (j - 1) (by omega) 1 (by norm_num), T_end l (j - 1) (by omega) (-1) (by norm_num)]
    constructor <;> ring)
  have e2 : (-b) ^ l * K b ((1 - X) * (X ^ 2 - 1) ^ l) = b ^ l * K b ((1 - X) * (1 - X ^ 2) ^ l) := by
    rw [neg_pow, mul_comm ((-1 : ℝ) ^ l), mul_assoc, ← K_C_mul]
    congr 2
    rw [map_pow, map_neg, map_one, ← mul_assoc, mul_comm ((-1 : ℝ[X]) ^ l), mul_assoc, ← mul_pow]
    congr 2; ring
  have hk := K_pos b ((1 - X) * (1 - X ^ 2) ^ l) (by
    intro x hx
    simp only [eval_pow, eval_sub, eval_one, eval_X, eval_mul]
    have : x ^ 2 < 1 := by nlinarith [hx.1, hx.2]
    exact mul_pos (by linarith [hx.2]) (pow_pos (by linarith) _))
  have : 0 < K b (D l 0 - D (l + 1) 0) := by
    rw [hP, K_C_mul, h, e2]
    have : (0 : ℝ) < l ! := by positivity
    positivity
  rw [K_sub, ← gaussLeg_K, ← gaussLeg_K] at this
  linarith

theorem gaussLeg_anti (b : ℝ) (hb : 0 < b) : StrictAnti (gaussLeg b) :=
  strictAnti_nat_of_succ_lt (gaussLeg_succ_lt b hb)

end Verif.Legendre
