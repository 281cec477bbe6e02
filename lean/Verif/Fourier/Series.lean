import Verif.Legendre.Orthogonal
import Verif.Fourier.Model
import Mathlib.Algebra.BigOperators.Intervals
import Mathlib.Tactic.LinearCombination

/-!
# Fourier series of the Legendre polynomials, and the integrals behind the normalisation

Helper lemmas for `Verif.Fourier.Props`.
-/
namespace Verif.Fourier
open Verif.Legendre Finset

/-- `C(2k,k)/4^k` -/
noncomputable def g : ℕ → ℝ
  | 0 => 1
  | k + 1 => g k * ((2 * k + 1) / (2 * k + 2))

theorem g_pos (k : ℕ) : 0 < g k := by
  induction k with
  | zero => exact one_pos
  | succ k ih => rw [g]; positivity

/-- `cos((l-2k) t)` -/
noncomputable def ck (l k : ℕ) (t : ℝ) : ℝ := Real.cos (((l : ℝ) - 2 * k) * t)

theorem g_interior (k j : ℕ) :
    ((k + j : ℕ) + 2 : ℝ) * (g (k + 1) * g (j + 1)) =
      (2 * (k + j : ℕ) + 3) / 2 * (g (k + 1) * g j + g k * g (j + 1)) -
        ((k + j : ℕ) + 1) * (g k * g j) := by
  rw [g, g]
  have h1 : (2 * (k : ℝ) + 2) ≠ 0 := by positivity
  have h2 : (2 * (j : ℝ) + 2) ≠ 0 := by positivity
  push_cast
  field_simp
  ring

/-- `P_l(cos t) = sum_k g_k g_(l-k) cos((l-2k) t)` -/
theorem legendre_series (l : ℕ) (t : ℝ) :
    dLeg l 0 (Real.cos t) = ∑ k ∈ range (l + 1), g k * g (l - k) * ck l k t := by
  induction l using Nat.strong_induction_on with
  | _ l ih =>
    match l with
    | 0 => simp [dLeg_zero_zero, g, ck]
    | 1 =>
      simp only [sum_range_succ, sum_range_zero, dLeg_one_zero, g, ck]
      have : Real.cos ((((1:ℕ):ℝ) - 2 * (1:ℕ)) * t) = Real.cos t := by
        rw [← Real.cos_neg]; congr 1; push_cast; ring
      rw [this]
      have hg0 : g 0 = 1 := rfl
      norm_num [hg0]
      ring
    | l + 2 =>
      have h0 := ih l (by omega)
      have h1 := ih (l + 1) (by omega)
      have hr := dLeg_rec l 0 (Real.cos t)
      have hc : ∀ k, Real.cos t * ck (l + 1) k t = 1 / 2 * (ck (l + 2) k t + ck l k t) := by
        intro k
        unfold ck
        have := Real.cos_add_cos ((((l + 2 : ℕ) : ℝ) - 2 * k) * t) (((l : ℝ) - 2 * k) * t)
        rw [this, show ((((l + 2 : ℕ) : ℝ) - 2 * k) * t + ((l : ℝ) - 2 * k) * t) / 2 =
            (((l + 1 : ℕ) : ℝ) - 2 * k) * t by push_cast; ring,
          show ((((l + 2 : ℕ) : ℝ) - 2 * k) * t - ((l : ℝ) - 2 * k) * t) / 2 = t by push_cast; ring]
        ring
      have hs : ∀ k, ck (l + 2) (k + 1) t = ck l k t := by
        intro k; unfold ck; congr 1; push_cast; ring
      have hx : Real.cos t * dLeg (l + 1) 0 (Real.cos t) =
          1 / 2 * (∑ k ∈ range (l + 2), g k * g (l + 1 - k) * ck (l + 2) k t) +
          1 / 2 * (∑ k ∈ range (l + 2), g k * g (l + 1 - k) * ck l k t) := by
        rw [h1, mul_sum, mul_sum, mul_sum, ← sum_add_distrib]
        apply sum_congr rfl
        intro k _
        linear_combination (g k * g (l + 1 - k)) * hc k
      have hl : ck l (l + 1) t = ck (l + 2) 0 t := by
        unfold ck; rw [← Real.cos_neg]; congr 1; push_cast; ring
      have hl2 : ck (l + 2) (l + 2) t = ck (l + 2) 0 t := by
        unfold ck; rw [← Real.cos_neg]; congr 1; push_cast; ring
      have hmid : ((l : ℝ) + 2) * (∑ k ∈ range (l + 1), g (k + 1) * g (l + 1 - k) * ck l k t) =
          (2 * l + 3) / 2 * (∑ k ∈ range (l + 1), g (k + 1) * g (l - k) * ck l k t) +
          (2 * l + 3) / 2 * (∑ k ∈ range (l + 1), g k * g (l + 1 - k) * ck l k t) -
          (l + 1) * (∑ k ∈ range (l + 1), g k * g (l - k) * ck l k t) := by
        rw [mul_sum, mul_sum, mul_sum, mul_sum, ← sum_add_distrib, ← sum_sub_distrib]
        apply sum_congr rfl
        intro k hk
        obtain ⟨j, rfl⟩ := Nat.exists_eq_add_of_le (Nat.lt_succ_iff.1 (mem_range.1 hk))
        rw [show k + j + 1 - k = j + 1 by omega, show k + j - k = j by omega]
        linear_combination (ck (k + j) k t) * g_interior k j
      have hb : ((l : ℝ) + 2) * g (l + 2) = (2 * l + 3) / 2 * g (l + 1) := by
        rw [g]
        have : (2 * ((l + 1 : ℕ) : ℝ) + 2) ≠ 0 := by positivity
        push_cast at this ⊢
        field_simp
        ring
      -- assemble
      have hg0 : g 0 = 1 := rfl
      have e1 : ∑ k ∈ range (l + 2), g k * g (l + 1 - k) * ck (l + 2) k t =
          (∑ k ∈ range (l + 1), g (k + 1) * g (l - k) * ck l k t) + g (l + 1) * ck (l + 2) 0 t := by
        rw [sum_range_succ']
        simp only [hs, Nat.sub_zero, hg0, one_mul, show ∀ k, l + 1 - (k + 1) = l - k from fun k => by omega]
      have e2 : ∑ k ∈ range (l + 2), g k * g (l + 1 - k) * ck l k t =
          (∑ k ∈ range (l + 1), g k * g (l + 1 - k) * ck l k t) + g (l + 1) * ck (l + 2) 0 t := by
        rw [sum_range_succ, Nat.sub_self, hg0, hl, mul_one]
      have e3 : ∑ k ∈ range (l + 2 + 1), g k * g (l + 2 - k) * ck (l + 2) k t =
          (∑ k ∈ range (l + 1), g (k + 1) * g (l + 1 - k) * ck l k t) + g (l + 2) * ck (l + 2) 0 t +
            g (l + 2) * ck (l + 2) 0 t := by
        rw [sum_range_succ, sum_range_succ', Nat.sub_self, hl2, hg0, mul_one]
        simp only [hs, Nat.sub_zero, one_mul, show ∀ k, l + 2 - (k + 1) = l + 1 - k from fun k => by omega]
      rw [e1, e2] at hx
      rw [e3]
      have h2 : ((l : ℝ) + 2) ≠ 0 := by positivity
      apply mul_left_cancel₀ h2
      push_cast at hr
      linear_combination hr + (2 * (l : ℝ) + 3) * hx - hmid - 2 * ck (l + 2) 0 t * hb - (l + 1 : ℝ) * h0

/-! ## folded series: only non-negative frequencies -/

/-- coefficient of `cos(2i t)` in `P_{2n}(cos t)`, doubled at `i = 0` -/
noncomputable def Te (n i : ℕ) : ℝ := if i ≤ n then 2 * (g (n - i) * g (n + i)) else 0
/-- coefficient of `cos((2i+1) t)` in `P_{2n+1}(cos t)` -/
noncomputable def To (n i : ℕ) : ℝ := if i ≤ n then 2 * (g (n - i) * g (n + 1 + i)) else 0

theorem Te_pos (n i : ℕ) (h : i ≤ n) : 0 < Te n i := by
  rw [Te, if_pos h]; have := g_pos (n - i); have := g_pos (n + i); positivity
theorem To_pos (n i : ℕ) (h : i ≤ n) : 0 < To n i := by
  rw [To, if_pos h]; have := g_pos (n - i); have := g_pos (n + 1 + i); positivity

theorem odd_ne (n i : ℕ) : (2 * (n : ℝ) - 2 * i - 1) ≠ 0 := by
  intro h
  have : (2 * (n : ℤ) - 2 * i - 1) = 0 := by exact_mod_cast h
  omega

theorem Te_rec (n i : ℕ) :
    (2 * n - 2 * i - 1 : ℝ) * (2 * n + 2 * i + 2) * Te n (i + 1) =
      (2 * n - 2 * i) * (2 * n + 2 * i + 1) * Te n i := by
  unfold Te
  rcases lt_trichotomy i n with h | h | h
  · obtain ⟨d, rfl⟩ := Nat.exists_eq_add_of_lt h
    rw [if_pos (by omega), if_pos (by omega), show i + d + 1 - (i + 1) = d by omega,
      show i + d + 1 - i = d + 1 by omega, show i + d + 1 + (i + 1) = i + d + 1 + i + 1 by ring, g, g]
    have h1 : (2 * (d : ℝ) + 2) ≠ 0 := by positivity
    have h2 : (2 * ((i + d + 1 + i : ℕ) : ℝ) + 2) ≠ 0 := by positivity
    push_cast at h2 ⊢
    field_simp
    ring
  · subst h
    rw [if_neg (by omega)]; ring
  · rw [if_neg (by omega), if_neg (by omega)]; ring

theorem To_rec (n i : ℕ) :
    (2 * n - 2 * i - 1 : ℝ) * (2 * n + 2 * i + 4) * To n (i + 1) =
      (2 * n - 2 * i) * (2 * n + 2 * i + 3) * To n i := by
  unfold To
  rcases lt_trichotomy i n with h | h | h
  · obtain ⟨d, rfl⟩ := Nat.exists_eq_add_of_lt h
    rw [if_pos (by omega), if_pos (by omega), show i + d + 1 - (i + 1) = d by omega,
      show i + d + 1 - i = d + 1 by omega, show i + d + 1 + 1 + (i + 1) = i + d + 1 + 1 + i + 1 by ring, g, g]
    have h1 : (2 * (d : ℝ) + 2) ≠ 0 := by positivity
    have h2 : (2 * ((i + d + 1 + 1 + i : ℕ) : ℝ) + 2) ≠ 0 := by positivity
    push_cast at h2 ⊢
    field_simp
    ring
  · subst h
    rw [if_neg (by omega)]; ring
  · rw [if_neg (by omega), if_neg (by omega)]; ring

theorem fold_even (n : ℕ) (f : ℕ → ℝ) (hf : ∀ k ≤ n, f (n + k) = f (n - k)) :
    ∑ k ∈ range (2 * n + 1), f k = f n + 2 * ∑ i ∈ range n, f (n - (i + 1)) := by
  rw [show 2 * n + 1 = n + (n + 1) by ring, sum_range_add, sum_range_succ']
  have e1 : ∑ k ∈ range n, f (n + (k + 1)) = ∑ k ∈ range n, f (n - (k + 1)) :=
    sum_congr rfl fun k hk => hf (k + 1) (by have := mem_range.1 hk; omega)
  have e2 : ∑ k ∈ range n, f k = ∑ k ∈ range n, f (n - (k + 1)) := by
    rw [← sum_range_reflect]
    exact sum_congr rfl fun k hk => by congr 1; omega
  rw [e1, e2, Nat.add_zero]; ring

theorem fold_odd (n : ℕ) (f : ℕ → ℝ) (hf : ∀ k ≤ n, f (n + 1 + k) = f (n - k)) :
    ∑ k ∈ range (2 * n + 1 + 1), f k = 2 * ∑ i ∈ range (n + 1), f (n - i) := by
  rw [show 2 * n + 1 + 1 = (n + 1) + (n + 1) by ring, sum_range_add]
  have e1 : ∑ k ∈ range (n + 1), f (n + 1 + k) = ∑ k ∈ range (n + 1), f (n - k) :=
    sum_congr rfl fun k hk => hf k (by have := mem_range.1 hk; omega)
  have e2 : ∑ k ∈ range (n + 1), f k = ∑ k ∈ range (n + 1), f (n - k) := by
    rw [← sum_range_reflect]
    exact sum_congr rfl fun k hk => by congr 1
  rw [e1, e2]; ring

theorem legendre_even (n L : ℕ) (h : n ≤ L) (t : ℝ) :
    dLeg (2 * n) 0 (Real.cos t) =
      ∑ i ∈ range (L + 1), (if i = 0 then Te n 0 / 2 else Te n i) * Real.cos (((2 * i : ℕ) : ℝ) * t) := by
  rw [legendre_series, fold_even n _ (by
    intro k hk
    rw [show 2 * n - (n + k) = n - k by omega, show 2 * n - (n - k) = n + k by omega, mul_comm (g (n + k))]
    congr 1
    unfold ck; rw [← Real.cos_neg]; congr 1; push_cast [Nat.cast_sub hk]; ring), sum_range_succ']
  have e0 : g n * g (2 * n - n) * ck (2 * n) n t =
      (if 0 = 0 then Te n 0 / 2 else Te n 0) * Real.cos (((2 * 0 : ℕ) : ℝ) * t) := by
    rw [if_pos rfl, Te, if_pos (Nat.zero_le _), show 2 * n - n = n by omega]
    unfold ck
    simp
  have e1 : ∑ i ∈ range L, (if i + 1 = 0 then Te n 0 / 2 else Te n (i + 1)) *
        Real.cos (((2 * (i + 1) : ℕ) : ℝ) * t) =
      2 * ∑ i ∈ range n, g (n - (i + 1)) * g (2 * n - (n - (i + 1))) * ck (2 * n) (n - (i + 1)) t := by
    obtain ⟨d, rfl⟩ := Nat.exists_eq_add_of_le h
    rw [sum_range_add, mul_sum]
    have z : ∑ x ∈ range d, (if n + x + 1 = 0 then Te n 0 / 2 else Te n (n + x + 1)) *
        Real.cos (((2 * (n + x + 1) : ℕ) : ℝ) * t) = 0 := by
      apply sum_eq_zero
      intro x _
      rw [if_neg (by omega), Te, if_neg (by omega), zero_mul]
    rw [z, add_zero]
    apply sum_congr rfl
    intro i hi
    have hi' := mem_range.1 hi
    rw [if_neg (by omega), Te, if_pos (by omega), show 2 * n - (n - (i + 1)) = n + (i + 1) by omega]
    have : ck (2 * n) (n - (i + 1)) t = Real.cos (((2 * (i + 1) : ℕ) : ℝ) * t) := by
      unfold ck; congr 1; rw [Nat.cast_sub (by omega)]; push_cast; ring
    rw [this]; ring
  rw [e0, e1, add_comm]

theorem legendre_odd (n L : ℕ) (h : n < L) (t : ℝ) :
    dLeg (2 * n + 1) 0 (Real.cos t) =
      ∑ i ∈ range L, To n i * Real.cos (((2 * i + 1 : ℕ) : ℝ) * t) := by
  rw [legendre_series, fold_odd n _ (by
    intro k hk
    rw [show 2 * n + 1 - (n + 1 + k) = n - k by omega, show 2 * n + 1 - (n - k) = n + 1 + k by omega,
      mul_comm (g (n + 1 + k))]
    congr 1
    unfold ck; rw [← Real.cos_neg]; congr 1; push_cast [Nat.cast_sub hk]; ring)]
  obtain ⟨d, rfl⟩ := Nat.exists_eq_add_of_le (show n + 1 ≤ L by omega)
  rw [mul_sum, sum_range_add (fun i => To n i * Real.cos (((2 * i + 1 : ℕ) : ℝ) * t))]
  have z : ∑ x ∈ range d, To n (n + 1 + x) * Real.cos (((2 * (n + 1 + x) + 1 : ℕ) : ℝ) * t) = 0 := by
    apply sum_eq_zero
    intro x _
    rw [To, if_neg (by omega), zero_mul]
  rw [z, add_zero]
  apply sum_congr rfl
  intro i hi
  have hi' := mem_range.1 hi
  rw [To, if_pos (by omega), show 2 * n + 1 - (n - i) = n + 1 + i by omega]
  have : ck (2 * n + 1) (n - i) t = Real.cos (((2 * i + 1 : ℕ) : ℝ) * t) := by
    unfold ck; congr 1; rw [Nat.cast_sub (by omega)]; push_cast; ring
  rw [this]; ring

/-! ## integrals of products of cosines and sines against the sine -/

theorem integral_sin_odd (n : ℤ) (hn : n % 2 = 1) :
    ∫ t in (0 : ℝ)..Real.pi, Real.sin ((n : ℝ) * t) = 2 / n := by
  have h0 : (n : ℝ) ≠ 0 := by
    intro h; have : n = 0 := by exact_mod_cast h
    omega
  have hd : ∀ t ∈ Set.uIcc (0:ℝ) Real.pi,
      HasDerivAt (fun t : ℝ => -Real.cos ((n : ℝ) * t) / n) (Real.sin ((n : ℝ) * t)) t := by
    intro t _
    have h1 : HasDerivAt (fun t : ℝ => (n : ℝ) * t) n t := by simpa using (hasDerivAt_id t).const_mul (n : ℝ)
    have h2 := ((Real.hasDerivAt_cos _).comp t h1).neg.div_const (n : ℝ)
    have e : -(-Real.sin ((n : ℝ) * t) * n) / n = Real.sin ((n : ℝ) * t) := by field_simp
    rw [e] at h2
    exact h2
  rw [intervalIntegral.integral_eq_sub_of_hasDerivAt hd (by
    apply Continuous.intervalIntegrable; fun_prop)]
  have hc : Real.cos ((n : ℝ) * Real.pi) = -1 := by
    obtain ⟨k, hk⟩ : ∃ k : ℤ, n = 2 * k + 1 := ⟨n / 2, by omega⟩
    rw [hk]
    push_cast
    rw [show (2 * (k : ℝ) + 1) * Real.pi = Real.pi + k * (2 * Real.pi) by ring, Real.cos_add_int_mul_two_pi,
      Real.cos_pi]
  rw [hc]
  simp
  ring

theorem four_sin (j k : ℕ) (h : (j + k) % 2 = 0) (s1 s2 s3 s4 : ℝ) :
    ∫ t in (0 : ℝ)..Real.pi, (s1 * Real.sin (((1 - j - k : ℤ) : ℝ) * t) + s2 * Real.sin (((1 + j - k : ℤ) : ℝ) * t) +
      s3 * Real.sin (((1 - j + k : ℤ) : ℝ) * t) + s4 * Real.sin (((1 + j + k : ℤ) : ℝ) * t)) =
    2 * (s1 / (1 - j - k) + s2 / (1 + j - k) + s3 / (1 - j + k) + s4 / (1 + j + k)) := by
  have hc : ∀ (s : ℝ) (n : ℤ), IntervalIntegrable (fun t => s * Real.sin ((n : ℝ) * t)) MeasureTheory.volume 0 Real.pi := by
    intro s n; apply Continuous.intervalIntegrable; fun_prop
  rw [intervalIntegral.integral_add ((((hc _ _).add (hc _ _)).add (hc _ _))) (hc _ _),
    intervalIntegral.integral_add (((hc _ _).add (hc _ _))) (hc _ _),
    intervalIntegral.integral_add (hc _ _) (hc _ _)]
  simp only [intervalIntegral.integral_const_mul]
  rw [integral_sin_odd _ (by omega), integral_sin_odd _ (by omega), integral_sin_odd _ (by omega),
    integral_sin_odd _ (by omega)]
  push_cast
  ring

theorem integral_cos_cos (j k : ℕ) (h : (j + k) % 2 = 0) :
    ∫ t in (0 : ℝ)..Real.pi, Real.cos (j * t) * Real.cos (k * t) * Real.sin t =
      (1 / (1 - (j : ℝ) - k) + 1 / (1 + (j : ℝ) - k) + 1 / (1 - (j : ℝ) + k) + 1 / (1 + (j : ℝ) + k)) / 2 := by
  have e : ∀ t : ℝ, Real.cos (j * t) * Real.cos (k * t) * Real.sin t =
      1 / 4 * Real.sin (((1 - j - k : ℤ) : ℝ) * t) + 1 / 4 * Real.sin (((1 + j - k : ℤ) : ℝ) * t) +
      1 / 4 * Real.sin (((1 - j + k : ℤ) : ℝ) * t) + 1 / 4 * Real.sin (((1 + j + k : ℤ) : ℝ) * t) := by
    intro t
    push_cast
    rw [show (1 - (j : ℝ) - k) * t = t - j * t - k * t by ring, show (1 + (j : ℝ) - k) * t = t + j * t - k * t by ring,
      show (1 - (j : ℝ) + k) * t = t - j * t + k * t by ring, show (1 + (j : ℝ) + k) * t = t + j * t + k * t by ring]
    simp only [Real.sin_add, Real.sin_sub, Real.cos_add, Real.cos_sub]
    ring
  simp only [e]
  rw [four_sin j k h]
  ring

theorem integral_sin_sin (j k : ℕ) (h : (j + k) % 2 = 0) :
    ∫ t in (0 : ℝ)..Real.pi, Real.sin (j * t) * Real.sin (k * t) * Real.sin t =
      (-1 / (1 - (j : ℝ) - k) + 1 / (1 + (j : ℝ) - k) + 1 / (1 - (j : ℝ) + k) - 1 / (1 + (j : ℝ) + k)) / 2 := by
  have e : ∀ t : ℝ, Real.sin (j * t) * Real.sin (k * t) * Real.sin t =
      -1 / 4 * Real.sin (((1 - j - k : ℤ) : ℝ) * t) + 1 / 4 * Real.sin (((1 + j - k : ℤ) : ℝ) * t) +
      1 / 4 * Real.sin (((1 - j + k : ℤ) : ℝ) * t) + -1 / 4 * Real.sin (((1 + j + k : ℤ) : ℝ) * t) := by
    intro t
    push_cast
    rw [show (1 - (j : ℝ) - k) * t = t - j * t - k * t by ring, show (1 + (j : ℝ) - k) * t = t + j * t - k * t by ring,
      show (1 - (j : ℝ) + k) * t = t - j * t + k * t by ring, show (1 + (j : ℝ) + k) * t = t + j * t + k * t by ring]
    simp only [Real.sin_add, Real.sin_sub, Real.cos_add, Real.cos_sub]
    ring
  simp only [e]
  rw [four_sin j k h]
  ring

end Verif.Fourier
