import Verif.Common.Sum
import Mathlib.Analysis.SpecialFunctions.Trigonometric.Basic
import Mathlib.Analysis.SpecialFunctions.Complex.Circle
import Mathlib.Algebra.Field.GeomSum

/-!
# Discrete orthogonality of cosines and sines on a regular longitude grid
-/
namespace Verif.Analysis

/-- the `i`-th of `N` equally spaced longitudes starting at `a` -/
noncomputable def reg (a : ℝ) (N i : ℕ) : ℝ := a + 2 * Real.pi * i / N

theorem exp_sum_zero (N : ℕ) (k : ℤ) (h : ¬ (N : ℤ) ∣ k) (hN : N ≠ 0) (a : ℝ) :
    ∑ i ∈ Finset.range N, Complex.exp (Complex.I * (k * reg a N i : ℝ)) = 0 := by
  have hNc : (N : ℂ) ≠ 0 := by exact_mod_cast hN
  have hz : ∀ i : ℕ, Complex.exp (Complex.I * (k * reg a N i : ℝ)) =
      Complex.exp (Complex.I * (k * a : ℝ)) * Complex.exp (2 * Real.pi * Complex.I * (k / N : ℂ)) ^ i := by
    intro i
    rw [← Complex.exp_nat_mul, ← Complex.exp_add]
    congr 1
    unfold reg
    push_cast
    field_simp
  simp only [hz]
  rw [← Finset.mul_sum, geom_sum_eq]
  · rw [← Complex.exp_nat_mul]
    have : (N : ℂ) * (2 * Real.pi * Complex.I * (k / N : ℂ)) = k * (2 * Real.pi * Complex.I) := by
      field_simp
    rw [this, Complex.exp_int_mul_two_pi_mul_I, sub_self, zero_div, mul_zero]
  · intro h1
    rw [Complex.exp_eq_one_iff] at h1
    obtain ⟨n, hn⟩ := h1
    have h2 : (2 * Real.pi * Complex.I : ℂ) ≠ 0 := by
      simp [Real.pi_ne_zero, Complex.I_ne_zero]
    have h3 : (k / N : ℂ) = n := by
      apply mul_left_cancel₀ h2
      rw [hn]; ring
    rw [div_eq_iff hNc] at h3
    have h4 : k = n * N := by exact_mod_cast h3
    exact h ⟨n, by rw [h4]; ring⟩

theorem cos_sum_zero (N : ℕ) (k : ℤ) (h : ¬ (N : ℤ) ∣ k) (hN : N ≠ 0) (a : ℝ) :
    ∑ i ∈ Finset.range N, Real.cos (k * reg a N i) = 0 := by
  have := congrArg Complex.re (exp_sum_zero N k h hN a)
  rw [Complex.re_sum] at this
  rw [Complex.zero_re] at this
  rw [← this]
  apply Finset.sum_congr rfl; intro i _
  rw [mul_comm Complex.I, Complex.exp_ofReal_mul_I_re]

theorem sin_sum_zero (N : ℕ) (k : ℤ) (h : ¬ (N : ℤ) ∣ k) (hN : N ≠ 0) (a : ℝ) :
    ∑ i ∈ Finset.range N, Real.sin (k * reg a N i) = 0 := by
  have := congrArg Complex.im (exp_sum_zero N k h hN a)
  rw [Complex.im_sum] at this
  rw [Complex.zero_im] at this
  rw [← this]
  apply Finset.sum_congr rfl; intro i _
  rw [mul_comm Complex.I, Complex.exp_ofReal_mul_I_im]

/-- sums of `cos(k phi_i)` for `|k| < N` -/
theorem cos_sum (N : ℕ) (k : ℤ) (hk : |k| < N) (a : ℝ) :
    ∑ i ∈ Finset.range N, Real.cos (k * reg a N i) = if k = 0 then (N : ℝ) else 0 := by
  have hN : N ≠ 0 := by
    rintro rfl
    have := abs_nonneg k
    push_cast at hk; omega
  by_cases h0 : k = 0
  · subst h0; simp
  · rw [if_neg h0]
    apply cos_sum_zero N k _ hN
    intro hd
    have := Int.le_of_dvd (abs_pos.2 h0) ((dvd_abs _ _).2 hd)
    omega

theorem sin_sum (N : ℕ) (k : ℤ) (hk : |k| < N) (a : ℝ) :
    ∑ i ∈ Finset.range N, Real.sin (k * reg a N i) = 0 := by
  have hN : N ≠ 0 := by
    rintro rfl
    have := abs_nonneg k
    push_cast at hk; omega
  by_cases h0 : k = 0
  · subst h0; simp
  · apply sin_sum_zero N k _ hN
    intro hd
    have := Int.le_of_dvd (abs_pos.2 h0) ((dvd_abs _ _).2 hd)
    omega

theorem cos_mul_cos' (a b : ℝ) : Real.cos a * Real.cos b = (Real.cos (a - b) + Real.cos (a + b)) / 2 := by
  rw [Real.cos_sub, Real.cos_add]; ring
theorem sin_mul_sin' (a b : ℝ) : Real.sin a * Real.sin b = (Real.cos (a - b) - Real.cos (a + b)) / 2 := by
  rw [Real.cos_sub, Real.cos_add]; ring
theorem sin_mul_cos' (a b : ℝ) : Real.sin a * Real.cos b = (Real.sin (a - b) + Real.sin (a + b)) / 2 := by
  rw [Real.sin_sub, Real.sin_add]; ring

theorem abs_bounds (N m n : ℕ) (h : m + n < N) : |((m : ℤ) - n)| < N ∧ |((m : ℤ) + n)| < N := by
  constructor
  · rw [abs_lt]; constructor <;> omega
  · rw [abs_lt]; constructor <;> omega

theorem cosines (N m n : ℕ) (h : m + n < N) (a : ℝ) :
    ∑ i ∈ Finset.range N, Real.cos (m * reg a N i) * Real.cos (n * reg a N i) =
      if m = n then (if m = 0 then (N : ℝ) else N / 2) else 0 := by
  obtain ⟨h1, h2⟩ := abs_bounds N m n h
  have e1 := cos_sum N _ h1 a
  have e2 := cos_sum N _ h2 a
  have : ∀ i, Real.cos (m * reg a N i) * Real.cos (n * reg a N i) =
      (Real.cos (((m - n : ℤ) : ℝ) * reg a N i) + Real.cos (((m + n : ℤ) : ℝ) * reg a N i)) * (1 / 2) := by
    intro i
    rw [cos_mul_cos']; push_cast; rw [← sub_mul, ← add_mul]; ring
  simp only [this]
  rw [← Finset.sum_mul, Finset.sum_add_distrib, e1, e2]
  by_cases hmn : m = n
  · subst hmn
    by_cases h0 : m = 0
    · subst h0; simp; ring
    · rw [if_pos (by omega), if_neg (by omega), if_pos rfl, if_neg h0]; ring
  · rw [if_neg (by omega), if_neg (by omega), if_neg hmn]; ring

theorem sines (N m n : ℕ) (h : m + n < N) (a : ℝ) :
    ∑ i ∈ Finset.range N, Real.sin (m * reg a N i) * Real.sin (n * reg a N i) =
      if m = n then (if m = 0 then (0 : ℝ) else N / 2) else 0 := by
  obtain ⟨h1, h2⟩ := abs_bounds N m n h
  have e1 := cos_sum N _ h1 a
  have e2 := cos_sum N _ h2 a
  have : ∀ i, Real.sin (m * reg a N i) * Real.sin (n * reg a N i) =
      (Real.cos (((m - n : ℤ) : ℝ) * reg a N i) - Real.cos (((m + n : ℤ) : ℝ) * reg a N i)) * (1 / 2) := by
    intro i
    rw [sin_mul_sin']; push_cast; rw [← sub_mul, ← add_mul]; ring
  simp only [this]
  rw [← Finset.sum_mul, Finset.sum_sub_distrib, e1, e2]
  by_cases hmn : m = n
  · subst hmn
    by_cases h0 : m = 0
    · subst h0; simp
    · rw [if_pos (by omega), if_neg (by omega), if_pos rfl, if_neg h0]; ring
  · rw [if_neg (by omega), if_neg (by omega), if_neg hmn]; ring

theorem sine_cosines (N m n : ℕ) (h : m + n < N) (a : ℝ) :
    ∑ i ∈ Finset.range N, Real.sin (m * reg a N i) * Real.cos (n * reg a N i) = 0 := by
  obtain ⟨h1, h2⟩ := abs_bounds N m n h
  have e1 := sin_sum N _ h1 a
  have e2 := sin_sum N _ h2 a
  have : ∀ i, Real.sin (m * reg a N i) * Real.cos (n * reg a N i) =
      (Real.sin (((m - n : ℤ) : ℝ) * reg a N i) + Real.sin (((m + n : ℤ) : ℝ) * reg a N i)) * (1 / 2) := by
    intro i
    rw [sin_mul_cos']; push_cast; rw [← sub_mul, ← add_mul]; ring
  simp only [this]
  rw [← Finset.sum_mul, Finset.sum_add_distrib, e1, e2]
  ring

end Verif.Analysis
