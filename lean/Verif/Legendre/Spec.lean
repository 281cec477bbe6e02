import Mathlib.Algebra.Polynomial.Derivative
import Mathlib.Algebra.Polynomial.Degree.Lemmas
import Mathlib.Analysis.Real.Sqrt
import Mathlib.Tactic.Ring
import Mathlib.Tactic.FieldSimp
import Mathlib.Tactic.LinearCombination
import Mathlib.Tactic.Positivity

/-!
# Specification: Legendre polynomials and fully normalised associated Legendre functions

Legendre polynomials are given by Rodrigues' formula; the associated functions are
`u^m d^m/dx^m P_l` with `u` the sine of the colatitude; the normalisation is the geodetic one.
The recursions used by the code are proved here from Rodrigues' formula.
-/
namespace Verif.Legendre
open Polynomial Nat

/-! ## Definitions (the specification) -/

/-- Rodrigues' formula `P_l = 1/(2^l l!) d^l/dx^l (x^2-1)^l` -/
noncomputable def legendreP (l : ℕ) : ℝ[X] := C (1 / (2 ^ l * l ! : ℝ)) * derivative^[l] ((X ^ 2 - 1) ^ l)

/-- `d^m P_l/dx^m` at `x` -/
noncomputable def dLeg (l m : ℕ) (x : ℝ) : ℝ := (derivative^[m] (legendreP l)).eval x

/-- geodetic (4 pi) normalisation `sqrt((2-δ_{m0}) (2l+1) (l-m)!/(l+m)!)` -/
noncomputable def nrm (l m : ℕ) : ℝ :=
  Real.sqrt ((if m = 0 then 1 else 2) * (2 * l + 1) * (l - m)! / (l + m)!)

/-- fully normalised associated Legendre function of `x` with `u` the sine of colatitude -/
noncomputable def Plm (l m : ℕ) (x u : ℝ) : ℝ := nrm l m * u ^ m * dLeg l m x

/-! ## Recursions from Rodrigues' formula -/

/-- `d^k/dx^k (x^2-1)^l` -/
noncomputable def T (l k : ℕ) : ℝ[X] := derivative^[k] ((X ^ 2 - 1) ^ l)

theorem deriv_w (l : ℕ) : derivative ((X ^ 2 - 1 : ℝ[X]) ^ (l + 1)) = C (2 * (l + 1 : ℝ)) * ((X ^ 2 - 1) ^ l * X) := by
  rw [derivative_pow]
  simp only [Nat.add_sub_cancel, derivative_sub, derivative_pow, derivative_X, derivative_one,
    map_mul, map_add, map_natCast, map_one, map_ofNat]
  push_cast
  ring

theorem T_succ (l k : ℕ) :
    T (l + 1) (k + 1) = C (2 * (l + 1 : ℝ)) * (T l k * X + (k : ℝ[X]) * T l (k - 1)) := by
  unfold T
  rw [Function.iterate_succ_apply, deriv_w, iterate_derivative_C_mul, iterate_derivative_mul_X,
    nsmul_eq_mul]

theorem T_two (l k : ℕ) :
    T (l + 1) (k + 2) = C (2 * (l + 1 : ℝ)) * (C (2 * (l : ℝ) + 1) * T l k + C (2 * (l : ℝ)) * T (l - 1) k) := by
  have h : derivative^[2] ((X ^ 2 - 1 : ℝ[X]) ^ (l + 1)) =
      C (2 * (l + 1 : ℝ)) * (C (2 * (l : ℝ) + 1) * (X ^ 2 - 1) ^ l + C (2 * (l : ℝ)) * (X ^ 2 - 1) ^ (l - 1)) := by
    rw [Function.iterate_succ_apply, Function.iterate_one, deriv_w, derivative_C_mul, derivative_mul,
      derivative_X]
    congr 1
    cases l with
    | zero => simp
    | succ l =>
      rw [deriv_w]
      simp only [Nat.add_sub_cancel, map_add, map_mul, map_natCast, map_one, map_ofNat, Nat.cast_add,
        Nat.cast_one]
      ring
  unfold T
  rw [Function.iterate_add_apply, h, iterate_derivative_C_mul, iterate_map_add derivative,
    iterate_derivative_C_mul, iterate_derivative_C_mul]

theorem dLeg_T (l m : ℕ) (x : ℝ) : dLeg l m x = (T l (l + m)).eval x / (2 ^ l * l !) := by
  unfold dLeg legendreP T
  rw [iterate_derivative_C_mul, ← Function.iterate_add_apply, Nat.add_comm m l]
  simp [div_eq_inv_mul]

/-- helper value `d^(l+m-1)(x^2-1)^l/(2^l l!)`, the antiderivative one step below -/
noncomputable def below (l m : ℕ) (x : ℝ) : ℝ := (T l (l + m - 1)).eval x / (2 ^ l * l !)

theorem dLeg_below (l m : ℕ) (x : ℝ) : dLeg (l + 1) m x = x * dLeg l m x + (l + m) * below l m x := by
  have h : T (l + 1) (l + m + 1) = _ := T_succ l (l + m)
  rw [dLeg_T, dLeg_T, below, show l + 1 + m = l + m + 1 by ring, h]
  simp only [eval_mul, eval_add, eval_C, eval_X, eval_natCast, factorial_succ, pow_succ]
  have : (l ! : ℝ) ≠ 0 := by positivity
  have h2 : (l + 1 : ℝ) ≠ 0 := by positivity
  push_cast
  field_simp

theorem dLeg_below' (l m : ℕ) (x : ℝ) :
    dLeg (l + 2) m x = (2 * l + 3) * below (l + 1) m x + dLeg l m x := by
  have h : T (l + 2) (l + m + 2) = _ := T_two (l + 1) (l + m)
  rw [dLeg_T, dLeg_T, below, show l + 2 + m = l + m + 2 by ring, h,
    show l + 1 + m - 1 = l + m by omega, Nat.add_sub_cancel]
  simp only [eval_mul, eval_add, eval_C, factorial_succ, pow_succ]
  have : (l ! : ℝ) ≠ 0 := by positivity
  have h2 : (l + 1 : ℝ) ≠ 0 := by positivity
  have h3 : (l + 1 + 1 : ℝ) ≠ 0 := by positivity
  push_cast
  field_simp
  ring

/-- three-term recursion in the degree: `(l+2-m) P_{l+2} = (2l+3) x P_{l+1} - (l+1+m) P_l` -/
theorem dLeg_rec (l m : ℕ) (x : ℝ) :
    (l + 2 - m : ℝ) * dLeg (l + 2) m x =
      (2 * l + 3) * x * dLeg (l + 1) m x - (l + 1 + m) * dLeg l m x := by
  have h1 := dLeg_below (l + 1) m x
  have h2 := dLeg_below' l m x
  push_cast at h1
  linear_combination (2 * (l : ℝ) + 3) * h1 - ((l : ℝ) + 1 + m) * h2

/-- `(x^2-1) P_{l+1}^{(m+1)} = (l+1-m) x P_{l+1}^{(m)} - (l+1+m) P_l^{(m)}` -/
theorem dLeg_deriv (l m : ℕ) (x : ℝ) :
    (x ^ 2 - 1) * dLeg (l + 1) (m + 1) x =
      (l + 1 - m) * x * dLeg (l + 1) m x - (l + 1 + m) * dLeg l m x := by
  have hb : ∀ l, below l (m + 1) x = dLeg l m x := by
    intro l; rw [below, dLeg_T]; rfl
  have h1 := dLeg_below (l + 1) (m + 1) x
  have h2 := dLeg_below' l (m + 1) x
  have h3 := dLeg_below l (m + 1) x
  rw [hb] at h1 h2 h3
  push_cast at h1 h2 h3
  linear_combination -x * h1 + x * h2 - h3

/-- degrees: the polynomial has degree at most `l`, so higher derivatives vanish -/
theorem dLeg_zero_of_lt (l m : ℕ) (h : l < m) (x : ℝ) : dLeg l m x = 0 := by
  unfold dLeg
  rw [iterate_derivative_eq_zero]
  · simp
  · unfold legendreP
    have h1 : ((X ^ 2 - 1 : ℝ[X]) ^ l).natDegree ≤ 2 * l := by
      refine (natDegree_pow_le).trans ?_
      have : (X ^ 2 - 1 : ℝ[X]).natDegree ≤ 2 := by
        refine (natDegree_sub_le _ _).trans ?_
        simp
      nlinarith
    have h2 : (derivative^[l] ((X ^ 2 - 1 : ℝ[X]) ^ l)).natDegree ≤ 2 * l - l :=
      (natDegree_iterate_derivative _ _).trans (Nat.sub_le_sub_right h1 _)
    have h3 := (natDegree_C_mul_le (1 / (2 ^ l * l ! : ℝ)) (derivative^[l] ((X ^ 2 - 1 : ℝ[X]) ^ l)))
    omega

/-- `P_0 = 1` -/
theorem dLeg_zero_zero (x : ℝ) : dLeg 0 0 x = 1 := by simp [dLeg, legendreP]

/-- `P_1 = x` -/
theorem dLeg_one_zero (x : ℝ) : dLeg 1 0 x = x := by
  have := dLeg_below 0 0 x
  rw [dLeg_zero_zero] at this
  simpa using this

/-- sectoral derivative: `P_{l+1}^{(l+1)} = (2l+1) P_l^{(l)}` -/
theorem dLeg_sectoral (l : ℕ) (x : ℝ) : dLeg (l + 1) (l + 1) x = (2 * l + 1) * dLeg l l x := by
  have hb : below l (l + 1) x = dLeg l l x := by rw [below, dLeg_T]; rfl
  have := dLeg_below l (l + 1) x
  rw [dLeg_zero_of_lt l (l + 1) (Nat.lt_succ_self l), hb] at this
  rw [this]; push_cast; ring

/-- next to the diagonal: `P_{l+1}^{(l)} = (2l+1) x P_l^{(l)}` -/
theorem dLeg_subsectoral (l : ℕ) (x : ℝ) : dLeg (l + 1) l x = (2 * l + 1) * x * dLeg l l x := by
  have := dLeg_deriv l l x
  rw [dLeg_sectoral] at this
  have h1 := dLeg_below l l x
  cases l with
  | zero => rw [dLeg_one_zero, dLeg_zero_zero]; simp
  | succ l =>
    have h2 := dLeg_below' l (l + 1) x
    rw [dLeg_zero_of_lt l (l + 1) (Nat.lt_succ_self l)] at h2
    have h3 : (2 * (l : ℝ) + 3) ≠ 0 := by positivity
    push_cast at *
    linear_combination (2 * (l : ℝ) + 3) / (2 * l + 3 - (2 * l + 2)) * h1 - (2 * (l : ℝ) + 2) * h2

/-! ## Normalised recursions -/

/-- `(2-δ_{m0})` -/
noncomputable def dlt (m : ℕ) : ℝ := if m = 0 then 1 else 2

theorem dlt_pos (m : ℕ) : 0 < dlt m := by unfold dlt; split <;> norm_num

theorem nrm_add (m j : ℕ) :
    nrm (m + j) m = Real.sqrt (dlt m * (2 * (m + j) + 1) * j ! / (2 * m + j)!) := by
  unfold nrm dlt
  rw [Nat.add_sub_cancel_left, show m + j + m = 2 * m + j by ring]
  push_cast; rfl

theorem sqrt_mul_eq {A B C D : ℝ} (hA : 0 ≤ A) (hC : 0 ≤ C) (h : A * B = C ^ 2 * D) :
    Real.sqrt A * Real.sqrt B = C * Real.sqrt D := by
  rw [← Real.sqrt_mul hA, h, Real.sqrt_mul (sq_nonneg C), Real.sqrt_sq hC]

theorem nrm_pos (l m : ℕ) : 0 < nrm l m := by
  unfold nrm
  apply Real.sqrt_pos.2
  have : (0 : ℝ) < if m = 0 then 1 else 2 := dlt_pos m
  positivity

theorem nrm_zero_zero : nrm 0 0 = 1 := by simp [nrm]

theorem Plm_zero_of_lt (l m : ℕ) (h : l < m) (x u : ℝ) : Plm l m x u = 0 := by
  rw [Plm, dLeg_zero_of_lt l m h, mul_zero]

/-- recursion of the normalised functions with the coefficients of the code, two degrees above
the order or more -/
theorem Plm_rec (m j : ℕ) (x u : ℝ) :
    Plm (m + j + 2) m x u =
      Real.sqrt ((2 * ((m + j + 2 : ℕ) : ℝ) - 1) * (2 * ((m + j + 2 : ℕ) : ℝ) + 1) /
        ((((m + j + 2 : ℕ) : ℝ) - m) * (((m + j + 2 : ℕ) : ℝ) + m))) * x * Plm (m + j + 1) m x u -
      Real.sqrt ((2 * ((m + j + 2 : ℕ) : ℝ) + 1) * (((m + j + 2 : ℕ) : ℝ) + m - 1) *
        (((m + j + 2 : ℕ) : ℝ) - m - 1) / ((((m + j + 2 : ℕ) : ℝ) - m) * (((m + j + 2 : ℕ) : ℝ) + m) *
          (2 * ((m + j + 2 : ℕ) : ℝ) - 3))) * Plm (m + j) m x u := by
  have hd := dlt_pos m
  have hj2 : (j + 2 : ℝ) ≠ 0 := by positivity
  have ha : Real.sqrt ((2 * ((m + j + 2 : ℕ) : ℝ) - 1) * (2 * ((m + j + 2 : ℕ) : ℝ) + 1) /
        ((((m + j + 2 : ℕ) : ℝ) - m) * (((m + j + 2 : ℕ) : ℝ) + m))) * nrm (m + j + 1) m =
      (2 * (m + j) + 3) / (j + 2) * nrm (m + j + 2) m := by
    rw [show m + j + 1 = m + (j + 1) by ring, show m + j + 2 = m + (j + 2) by ring, nrm_add, nrm_add]
    apply sqrt_mul_eq
    · push_cast
      have : (0:ℝ) ≤ 2 * (m + (j + 2)) - 1 := by linarith [(m.cast_nonneg : (0:ℝ) ≤ m), (j.cast_nonneg : (0:ℝ) ≤ j)]
      have h2 : (m + (j + 2) - m : ℝ) = j + 2 := by ring
      rw [h2]
      positivity
    · positivity
    · push_cast
      have h2 : (m + (j + 2) - m : ℝ) = j + 2 := by ring
      rw [h2, show 2 * m + (j + 2) = 2 * m + (j + 1) + 1 by ring, factorial_succ (2 * m + (j + 1)),
        show (j + 2)! = (j + 2) * (j + 1)! from rfl]
      push_cast
      have hf : ((2 * m + (j + 1))! : ℝ) ≠ 0 := by positivity
      have h5 : (2 * (m : ℝ) + (j + 1) + 1) ≠ 0 := by positivity
      have h6 : ((m : ℝ) + (j + 2) + m) ≠ 0 := by positivity
      field_simp
      ring
  have hb : Real.sqrt ((2 * ((m + j + 2 : ℕ) : ℝ) + 1) * (((m + j + 2 : ℕ) : ℝ) + m - 1) *
        (((m + j + 2 : ℕ) : ℝ) - m - 1) / ((((m + j + 2 : ℕ) : ℝ) - m) * (((m + j + 2 : ℕ) : ℝ) + m) *
          (2 * ((m + j + 2 : ℕ) : ℝ) - 3))) * nrm (m + j) m =
      (2 * m + j + 1) / (j + 2) * nrm (m + j + 2) m := by
    rw [show m + j + 2 = m + (j + 2) by ring, nrm_add, nrm_add]
    have h2 : (((m + (j + 2) : ℕ) : ℝ) - m : ℝ) = j + 2 := by push_cast; ring
    have h3 : (((m + (j + 2) : ℕ) : ℝ) - m - 1 : ℝ) = j + 1 := by push_cast; ring
    have h4 : (((m + (j + 2) : ℕ) : ℝ) + m - 1 : ℝ) = 2 * m + j + 1 := by push_cast; ring
    have h5 : (2 * ((m + (j + 2) : ℕ) : ℝ) - 3 : ℝ) = 2 * (m + j) + 1 := by push_cast; ring
    rw [h3, h2, h4, h5]
    apply sqrt_mul_eq
    · positivity
    · positivity
    · rw [show 2 * m + (j + 2) = 2 * m + j + 1 + 1 by ring, factorial_succ (2 * m + j + 1),
        factorial_succ (2 * m + j), show (j + 2)! = (j + 2) * ((j + 1) * j !) from rfl]
      push_cast
      have hf : ((2 * m + j)! : ℝ) ≠ 0 := by positivity
      have h6 : (2 * (m : ℝ) + j + 1 + 1) ≠ 0 := by positivity
      have h7 : (2 * (m : ℝ) + j + 1) ≠ 0 := by positivity
      have h8 : ((m : ℝ) + (j + 2) + m) ≠ 0 := by positivity
      have h9 : (2 * ((m : ℝ) + j) + 1) ≠ 0 := by positivity
      field_simp
      ring
  have hr := dLeg_rec (m + j) m x
  have hr' : dLeg (m + j + 2) m x = (2 * (m + j) + 3) / (j + 2) * x * dLeg (m + j + 1) m x -
      (2 * m + j + 1) / (j + 2) * dLeg (m + j) m x := by
    have : ((m + j : ℕ) : ℝ) + 2 - m = j + 2 := by push_cast; ring
    rw [this] at hr
    push_cast at hr
    field_simp
    linear_combination hr
  unfold Plm
  rw [hr']
  linear_combination (-(x * u ^ m * dLeg (m + j + 1) m x)) * ha + (u ^ m * dLeg (m + j) m x) * hb

/-- one degree above the order: `P_{m+1,m} = sqrt(2m+3) x P_{mm}` -/
theorem Plm_sub (m : ℕ) (x u : ℝ) :
    Plm (m + 1) m x u = Real.sqrt (2 * m + 3) * x * Plm m m x u := by
  have h : Real.sqrt (2 * m + 3) * nrm m m = (2 * m + 1) * nrm (m + 1) m := by
    have := nrm_add m 0
    rw [Nat.add_zero] at this
    rw [this, nrm_add m 1]
    have hd := dlt_pos m
    apply sqrt_mul_eq
    · positivity
    · positivity
    · rw [factorial_succ (2 * m)]
      push_cast
      simp only [Nat.add_zero, factorial_zero, factorial_one]
      have hf : ((2 * m)! : ℝ) ≠ 0 := by positivity
      have h6 : (2 * (m : ℝ) + 1) ≠ 0 := by positivity
      field_simp
      push_cast; ring
  unfold Plm
  rw [dLeg_subsectoral]
  linear_combination (-(x * u ^ m * dLeg m m x)) * h

/-- sectoral functions from degree 2: `P_{l+1,l+1} = u sqrt((2l+3)/(2l+2)) P_{ll}` for `l >= 1` -/
theorem Plm_sectoral (l : ℕ) (hl : 1 ≤ l) (x u : ℝ) :
    Plm (l + 1) (l + 1) x u =
      u * Real.sqrt ((2 * ((l + 1 : ℕ) : ℝ) + 1) / (2 * ((l + 1 : ℕ) : ℝ))) * Plm l l x u := by
  have h : Real.sqrt ((2 * ((l + 1 : ℕ) : ℝ) + 1) / (2 * ((l + 1 : ℕ) : ℝ))) * nrm l l =
      (2 * l + 1) * nrm (l + 1) (l + 1) := by
    have e1 := nrm_add l 0
    have e2 := nrm_add (l + 1) 0
    rw [Nat.add_zero] at e1 e2
    rw [e1, e2]
    have hdl : dlt (l + 1) = dlt l := by
      unfold dlt; rw [if_neg (by omega), if_neg (by omega)]
    have hd := dlt_pos l
    rw [hdl]
    apply sqrt_mul_eq
    · positivity
    · positivity
    · rw [show 2 * (l + 1) + 0 = 2 * l + 1 + 1 by ring, factorial_succ (2 * l + 1), factorial_succ (2 * l)]
      simp only [Nat.add_zero, factorial_zero]
      push_cast
      have hf : ((2 * l)! : ℝ) ≠ 0 := by positivity
      have h6 : (2 * (l : ℝ) + 1) ≠ 0 := by positivity
      have h7 : (2 * (l : ℝ) + 1 + 1) ≠ 0 := by positivity
      have h8 : ((l : ℝ) + 1) ≠ 0 := by positivity
      field_simp
      ring
  unfold Plm
  rw [dLeg_sectoral, pow_succ]
  linear_combination (-(u ^ l * u * dLeg l l x)) * h

theorem Plm_one_zero (x u : ℝ) : Plm 1 0 x u = Real.sqrt 3 * x := by
  have := Plm_sub 0 x u
  rw [this]
  simp [Plm, nrm_zero_zero, dLeg_zero_zero]

theorem Plm_zero_zero (x u : ℝ) : Plm 0 0 x u = 1 := by simp [Plm, nrm_zero_zero, dLeg_zero_zero]

theorem Plm_one_one (x u : ℝ) : Plm 1 1 x u = Real.sqrt 3 * u := by
  unfold Plm
  rw [dLeg_sectoral 0, dLeg_zero_zero]
  have : nrm 1 1 = Real.sqrt 3 := by
    unfold nrm; congr 1; norm_num [factorial]
  rw [this]; simp

end Verif.Legendre
