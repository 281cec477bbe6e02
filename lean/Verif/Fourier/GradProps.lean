import Verif.Fourier.Gradient

/-!
# C72: what `legendre_gradient` and `harmonic_gradients` return
-/
namespace Verif.Fourier
open Verif.Legendre Finset

/-- basis of the gradient series: sines for even, cosines for odd orders -/
noncomputable def gtr (m j : ℕ) (t : ℝ) : ℝ := if m % 2 = 0 then Real.sin ((j : ℝ) * t) else Real.cos ((j : ℝ) * t)

theorem legendreGradient_isSome (lmax : ℕ) (he : lmax % 2 = 0) (h4 : 4 ≤ lmax) :
    ∃ vw, legendreGradient lmax lmax = some vw := by
  obtain ⟨P, hP, _⟩ := fourierLegendre_correct lmax he h4
  unfold legendreGradient
  rw [hP]
  exact ⟨_, rfl⟩

/-- rows of the gradient tables above the diagonal are zero -/
theorem legendreGradient_upper (lmax : ℕ) (vw : A3 × A3) (h : legendreGradient lmax lmax = some vw) (l m j : ℕ)
    (hm : l < m) : vw.1 l m j = 0 := by
  unfold legendreGradient at h
  cases hP : fourierLegendre lmax lmax with
  | none => rw [hP] at h; cases h
  | some P =>
    rw [hP] at h
    cases h
    dsimp only
    rw [if_neg (show ¬ m = 0 by omega)]
    unfold vRaw
    rw [if_neg (show ¬ (1 ≤ l ∧ l ≤ lmax ∧ m = 0) by omega), if_neg (show ¬ (2 ≤ l ∧ l ≤ lmax ∧ 1 ≤ m ∧ m < l) by omega),
      if_neg (show ¬ (1 ≤ l ∧ l ≤ lmax ∧ m = 1) by omega), if_neg (show ¬ (2 ≤ l ∧ l ≤ lmax ∧ 2 ≤ m ∧ m ≤ l) by omega)]
    simp

/-- The second output of `harmonic_gradients` is the colatitude derivative of the field whose
coefficients are `(S, -C)`: the field asked for, turned by a quarter of a period in every order. -/
theorem harmonicGradients_meridional (LMIN LMAX : ℕ) (he : LMAX % 2 = 0) (h4 : 4 ≤ LMAX) (c s : ℕ → ℕ → ℝ)
    (phi th : ℝ) : ∃ g, harmonicGradients LMIN LMAX c s phi th = some g ∧
      HasDerivAt (fun t => ∑ l ∈ range (LMAX + 1), ∑ m ∈ range (l + 1), if LMIN ≤ l then
        Plm l m (Real.cos t) (Real.sin t) * (s l m * Real.cos (m * phi) - c l m * Real.sin (m * phi)) else 0)
        g.2 th := by
  obtain ⟨vw, hvw, hd⟩ := legendreGradient_meridional LMAX he h4
  unfold harmonicGradients
  rw [hvw]
  refine ⟨_, rfl, ?_⟩
  dsimp only
  set sq : ℕ → ℝ := fun l => Real.sqrt (((l : ℝ) + 1) * l) with hsq
  set cl : ℕ → ℕ → ℝ := fun l m => if LMIN ≤ l ∧ l ≤ LMAX then c l m else 0 with hcl
  set sl : ℕ → ℕ → ℝ := fun l m => if LMIN ≤ l ∧ l ≤ LMAX then s l m else 0 with hsl
  set ser : ℕ → ℕ → ℝ := fun l m => ∑ j ∈ range (LMAX + 1), vw.1 l m j *
    (if m % 2 = 0 then Real.sin ((j : ℝ) * th) else Real.cos ((j : ℝ) * th)) with hser
  have key : HasDerivAt (fun t => ∑ l ∈ range (LMAX + 1), ∑ m ∈ range (l + 1), if LMIN ≤ l then
        Plm l m (Real.cos t) (Real.sin t) * (s l m * Real.cos (m * phi) - c l m * Real.sin (m * phi)) else 0)
      (∑ l ∈ range (LMAX + 1), ∑ m ∈ range (l + 1), -(sq l * ser l m) *
        (sl l m * Real.cos (m * phi) - cl l m * Real.sin (m * phi))) th := by
    apply HasDerivAt.fun_sum
    intro l hl
    apply HasDerivAt.fun_sum
    intro m hm
    have hl' : l ≤ LMAX := by have := mem_range.1 hl; omega
    have hm' : m ≤ l := by have := mem_range.1 hm; omega
    by_cases hmin : LMIN ≤ l
    · simp only [if_pos hmin, hsl, hcl]
      rw [if_pos ⟨hmin, hl'⟩, if_pos ⟨hmin, hl'⟩]
      by_cases h0 : l = 0
      · subst h0
        have hm0 : m = 0 := by omega
        subst hm0
        simp only [Plm_zero_zero, hsq, Nat.cast_zero, mul_zero, Real.sqrt_zero, zero_mul, neg_zero]
        exact hasDerivAt_const _ _
      · exact (hd l m (by omega) hm' hl' th).mul_const _
    · simp only [if_neg hmin, hsl, hcl]
      rw [if_neg (by tauto), if_neg (by tauto)]
      simp only [zero_mul, sub_zero, mul_zero]
      exact hasDerivAt_const _ _
  refine key.congr_deriv ?_
  have hext : ∀ l ∈ range (LMAX + 1), ∑ m ∈ range (l + 1), -(sq l * ser l m) *
        (sl l m * Real.cos (m * phi) - cl l m * Real.sin (m * phi)) =
      ∑ m ∈ range (LMAX + 1), -(sq l * ser l m) *
        (sl l m * Real.cos (m * phi) - cl l m * Real.sin (m * phi)) := by
    intro l hl
    apply sum_subset
    · intro m hm
      have := mem_range.1 hm; have := mem_range.1 hl
      exact mem_range.2 (by omega)
    · intro m _ hm
      have hz : ser l m = 0 := by
        simp only [hser]
        apply sum_eq_zero
        intro j _
        rw [legendreGradient_upper LMAX vw hvw l m j (by
          by_contra hc; exact hm (mem_range.2 (by omega))), zero_mul]
      rw [hz]; ring
  rw [sum_congr rfl hext, sum_comm]
  apply sum_congr rfl
  intro m _
  have e1 : ∀ d : ℕ → ℝ, ∑ n ∈ range (LMAX + 1), (∑ l ∈ range (LMAX + 1), vw.1 l m n * d l) *
      (if m % 2 = 0 then Real.sin ((n : ℝ) * th) else Real.cos ((n : ℝ) * th)) =
      ∑ l ∈ range (LMAX + 1), d l * ser l m := by
    intro d
    simp only [hser, sum_mul, mul_sum]
    rw [sum_comm]
    apply sum_congr rfl; intro l _
    apply sum_congr rfl; intro n _
    ring
  have e2 : ∀ d : ℕ → ℝ, ∑ n ∈ range (LMAX + 1), -(∑ l ∈ range (LMAX + 1), vw.1 l m n * d l) *
      (if m % 2 = 0 then Real.sin ((n : ℝ) * th) else Real.cos ((n : ℝ) * th)) =
      -∑ l ∈ range (LMAX + 1), d l * ser l m := by
    intro d
    rw [← e1 d, ← sum_neg_distrib]
    apply sum_congr rfl; intro n _; ring
  rw [e1 (fun l => -sl l m * sq l), e2 (fun l => -cl l m * sq l), mul_sum, mul_neg, mul_sum, ← sub_eq_add_neg,
    ← sum_sub_distrib]
  apply sum_congr rfl
  intro l _
  ring

example : ∃ g, harmonicGradients 0 60 (fun l m => if l = 2 ∧ m = 1 then 1 else 0) (fun _ _ => 0) 1 2 = some g :=
  let ⟨g, h, _⟩ := harmonicGradients_meridional 0 60 (by norm_num) (by norm_num) _ _ 1 2
  ⟨g, h⟩

/-- A zonal field (only order 0) gets the meridional output zero at every point … -/
theorem harmonicGradients_zonal_field (LMIN LMAX : ℕ) (he : LMAX % 2 = 0) (h4 : 4 ≤ LMAX) (c s : ℕ → ℕ → ℝ)
    (hc : ∀ l m, 1 ≤ m → c l m = 0) (hs : ∀ l m, s l m = 0) (phi th : ℝ) :
    ∃ g, harmonicGradients LMIN LMAX c s phi th = some g ∧ g.2 = 0 := by
  obtain ⟨g, hg, hd⟩ := harmonicGradients_meridional LMIN LMAX he h4 c s phi th
  refine ⟨g, hg, ?_⟩
  have e : (fun t => ∑ l ∈ range (LMAX + 1), ∑ m ∈ range (l + 1), if LMIN ≤ l then
        Plm l m (Real.cos t) (Real.sin t) * (s l m * Real.cos (m * phi) - c l m * Real.sin (m * phi)) else 0) =
      fun _ => (0 : ℝ) := by
    funext t
    apply sum_eq_zero; intro l _
    apply sum_eq_zero; intro m _
    split
    · by_cases h0 : m = 0
      · subst h0; rw [hs]; simp
      · rw [hs, hc l m (by omega)]; simp
    · rfl
  rw [e] at hd
  exact hd.unique (hasDerivAt_const _ _)

/-- … although its true meridional derivative is not zero: the property "output 2 is the meridional
derivative of the field" is false of the code. -/
theorem harmonicGradients_not_gradient : ∃ (c s : ℕ → ℕ → ℝ) (phi th : ℝ) (g : ℝ × ℝ),
    harmonicGradients 0 60 c s phi th = some g ∧
      ¬ HasDerivAt (fun t => ∑ l ∈ range 61, ∑ m ∈ range (l + 1),
        Plm l m (Real.cos t) (Real.sin t) * (c l m * Real.cos (m * phi) + s l m * Real.sin (m * phi))) g.2 th := by
  refine ⟨fun l m => if l = 1 ∧ m = 0 then 1 else 0, fun _ _ => 0, 0, Real.pi / 2, ?_⟩
  obtain ⟨g, hg, h0⟩ := harmonicGradients_zonal_field 0 60 (by norm_num) (by norm_num)
    (fun l m => if l = 1 ∧ m = 0 then 1 else 0) (fun _ _ => 0) (by intro l m h; rw [if_neg (by omega)])
    (by intros; rfl) 0 (Real.pi / 2)
  refine ⟨g, hg, ?_⟩
  rw [h0]
  intro hd
  have e : (fun t => ∑ l ∈ range 61, ∑ m ∈ range (l + 1), Plm l m (Real.cos t) (Real.sin t) *
      ((if l = 1 ∧ m = 0 then (1:ℝ) else 0) * Real.cos (m * 0) + 0 * Real.sin (m * 0))) =
      fun t => Real.sqrt 3 * Real.cos t := by
    funext t
    rw [sum_eq_single 1, sum_eq_single 0]
    · rw [if_pos ⟨rfl, rfl⟩, Plm_one_zero]; simp
    · intro m _ hm; rw [if_neg (by tauto)]; ring
    · intro h; exact absurd (mem_range.2 (by norm_num)) h
    · intro l _ hl
      apply sum_eq_zero; intro m _
      rw [if_neg (by tauto)]; ring
    · intro h; exact absurd (mem_range.2 (by norm_num)) h
  rw [e] at hd
  have h2 := ((Real.hasDerivAt_cos (Real.pi / 2)).const_mul (Real.sqrt 3))
  have := hd.unique h2
  rw [Real.sin_pi_div_two] at this
  have h3 : 0 < Real.sqrt 3 := Real.sqrt_pos.2 (by norm_num)
  linarith

/-! ### zonal table -/

/-- What the zonal table holds (`u = sin θ`): with the second factor at degree `l-1`, order `m-1`
and, wrongly, the first at degree `l` instead of `l-1`, and from order 2 with half the weight for the
second. -/
theorem legendreGradient_zonal_value (lmax : ℕ) (he : lmax % 2 = 0) (h4 : 4 ≤ lmax) :
    ∃ vw, legendreGradient lmax lmax = some vw ∧ ∀ l m, 1 ≤ m → m ≤ l → l ≤ lmax → ∀ t : ℝ,
      ∑ j ∈ range (lmax + 1), vw.2 l m j * gtr m j t =
        Real.sqrt ((2 * (l : ℝ) + 1) / (2 * l - 1)) / Real.sqrt (((l : ℝ) + 1) * l) *
          (Real.sqrt (((l : ℝ) - m) * (l - m - 1) / 4) * Plm l (m + 1) (Real.cos t) (Real.sin t) +
            (if m = 1 then Real.sqrt ((l : ℝ) * (l + 1) / 2) else Real.sqrt (((l : ℝ) + m) * (l + m - 1)) / 4) *
              Plm (l - 1) (m - 1) (Real.cos t) (Real.sin t)) := by
  obtain ⟨P, hP, hg⟩ := fourierLegendre_correct lmax he h4
  unfold legendreGradient
  rw [hP]
  refine ⟨_, rfl, ?_⟩
  intro l m h1 hm hl t
  have hpar : ∀ k (j : ℕ), (k % 2 = (m + 1) % 2) → gtr m j t =
      (if k % 2 = 0 then Real.cos (j * t) else Real.sin (j * t)) := by
    intro k j hk
    unfold gtr
    by_cases hm2 : m % 2 = 0
    · rw [if_pos hm2, if_neg (by omega)]
    · rw [if_neg hm2, if_pos (by omega)]
  rw [← hg (l - 1) (m - 1) (by omega) (by omega) t]
  have hup : Real.sqrt (((l : ℝ) - m) * (l - m - 1) / 4) * Plm l (m + 1) (Real.cos t) (Real.sin t) =
      ∑ j ∈ range (lmax + 1), (if 2 ≤ l ∧ l ≤ lmax ∧ 1 ≤ m ∧ m < l then
        Real.sqrt (((l - 2 - (m - 1) : ℕ) : ℝ) * ((l - 1 - (m - 1) : ℕ) : ℝ) / 4) * P l (m + 1) j else 0) * gtr m j t := by
    by_cases hlt : m < l
    · rw [← hg l (m + 1) hlt hl t, mul_sum]
      apply sum_congr rfl
      intro j _
      rw [if_pos (show 2 ≤ l ∧ l ≤ lmax ∧ 1 ≤ m ∧ m < l from ⟨by omega, hl, h1, hlt⟩), hpar (m + 1) j rfl]
      have e1 : ((l - 1 - (m - 1) : ℕ) : ℝ) = (l : ℝ) - m := by
        rw [show l - 1 - (m - 1) = l - m by omega, Nat.cast_sub hm]
      have e2 : ((l - 2 - (m - 1) : ℕ) : ℝ) = (l : ℝ) - m - 1 := by
        rw [show l - 2 - (m - 1) = l - m - 1 by omega, Nat.cast_sub (by omega), Nat.cast_sub hm, Nat.cast_one]
      rw [e1, e2, mul_comm ((l : ℝ) - m - 1)]
      ring
    · have : m = l := by omega
      subst this
      rw [sub_self, zero_mul, zero_div, Real.sqrt_zero, zero_mul]
      symm
      apply sum_eq_zero
      intro j _
      rw [if_neg (by omega), zero_mul]
  rw [hup, mul_sum, mul_add, mul_sum, mul_sum, ← sum_add_distrib]
  apply sum_congr rfl
  intro j _
  rw [← hpar (m - 1) j (by omega)]
  dsimp only
  rw [if_pos (show 1 ≤ l by omega)]
  unfold wRaw
  by_cases hm1 : m = 1
  · subst hm1
    rw [if_pos (show 1 ≤ l ∧ l ≤ lmax ∧ 1 = 1 from ⟨hm, hl, rfl⟩), if_pos rfl]
    split
    · ring
    · ring
  · rw [if_neg (show ¬ (1 ≤ l ∧ l ≤ lmax ∧ m = 1) by omega),
      if_pos (show 2 ≤ l ∧ l ≤ lmax ∧ 2 ≤ m ∧ m ≤ l from ⟨by omega, hl, by omega, hm⟩), if_neg hm1]
    have e1 : ((l + 2 + (m - 2) : ℕ) : ℝ) = (l : ℝ) + m := by
      rw [show l + 2 + (m - 2) = l + m by omega]; push_cast; ring
    have e2 : ((l + 1 + (m - 2) : ℕ) : ℝ) = (l : ℝ) + m - 1 := by
      rw [show l + 1 + (m - 2) = l + (m - 1) by omega, Nat.cast_add, Nat.cast_sub h1]; push_cast; ring
    rw [e1, e2]
    split
    · ring
    · ring

/-- Sectoral terms of the zonal table are half of `m P_lm / sin θ / sqrt(l(l+1))` for every degree
from 2, so the zonal gradient of a sectoral field is off by a factor 2. -/
theorem legendreGradient_zonal_sectoral (lmax : ℕ) (he : lmax % 2 = 0) (h4 : 4 ≤ lmax) :
    ∃ vw, legendreGradient lmax lmax = some vw ∧ ∀ l, 2 ≤ l → l ≤ lmax → ∀ t : ℝ,
      (∑ j ∈ range (lmax + 1), vw.2 l l j * gtr l j t) * Real.sin t =
        1 / 2 * (l * Plm l l (Real.cos t) (Real.sin t) / Real.sqrt (((l : ℝ) + 1) * l)) := by
  obtain ⟨vw, hvw, h⟩ := legendreGradient_zonal_value lmax he h4
  refine ⟨vw, hvw, ?_⟩
  intro l h2 hl t
  rw [h l l (by omega) (le_refl _) hl t, if_neg (by omega)]
  obtain ⟨k, rfl⟩ : ∃ k, l = k + 1 := ⟨l - 1, by omega⟩
  rw [Plm_sectoral k (by omega), Nat.add_sub_cancel, sub_self, zero_mul, zero_div, Real.sqrt_zero, zero_mul, zero_add]
  have hk : (0:ℝ) ≤ k := Nat.cast_nonneg k
  have key : Real.sqrt ((2 * ((k + 1 : ℕ) : ℝ) + 1) / (2 * ((k + 1 : ℕ) : ℝ) - 1)) *
      (Real.sqrt ((((k + 1 : ℕ) : ℝ) + (k + 1 : ℕ)) * ((k + 1 : ℕ) + (k + 1 : ℕ) - 1)) / 4) =
      1 / 2 * ((k + 1 : ℕ) : ℝ) * Real.sqrt ((2 * ((k + 1 : ℕ) : ℝ) + 1) / (2 * ((k + 1 : ℕ) : ℝ))) := by
    push_cast
    have hp : (0:ℝ) < 2 * (k + 1) - 1 := by linarith
    rw [← mul_div_assoc, ← Real.sqrt_mul (by positivity)]
    rw [div_eq_iff (by norm_num)]
    rw [show 1 / 2 * ((k:ℝ) + 1) * Real.sqrt ((2 * (k + 1) + 1) / (2 * (k + 1))) * 4 =
      (2 * (k + 1)) * Real.sqrt ((2 * (k + 1) + 1) / (2 * (k + 1))) by ring]
    rw [← Real.sqrt_sq (show (0:ℝ) ≤ 2 * (k + 1) by positivity), ← Real.sqrt_mul (by positivity),
      Real.sqrt_sq (show (0:ℝ) ≤ 2 * (k + 1) by positivity)]
    congr 1
    field_simp
    ring
  rw [← mul_assoc, div_mul_eq_mul_div, key]
  ring

/-- Degree 1, order 1 is right. -/
theorem legendreGradient_zonal_low (lmax : ℕ) (he : lmax % 2 = 0) (h4 : 4 ≤ lmax) :
    ∃ vw, legendreGradient lmax lmax = some vw ∧ ∀ t : ℝ,
      (∑ j ∈ range (lmax + 1), vw.2 1 1 j * gtr 1 j t) * Real.sin t =
        Plm 1 1 (Real.cos t) (Real.sin t) / Real.sqrt 2 := by
  obtain ⟨vw, hvw, h⟩ := legendreGradient_zonal_value lmax he h4
  refine ⟨vw, hvw, ?_⟩
  intro t
  rw [h 1 1 (le_refl _) (le_refl _) (by omega) t, Plm_one_one]
  simp [Plm_zero_zero]
  norm_num
  ring

/-- The zonal table is therefore not `m P_lm / sin θ / sqrt(l(l+1))`, not even up to one factor for
all degrees. -/
theorem legendreGradient_zonal_wrong (lmax : ℕ) (he : lmax % 2 = 0) (h4 : 4 ≤ lmax) :
    ∃ vw, legendreGradient lmax lmax = some vw ∧ ¬ ∃ q : ℝ, ∀ l, 1 ≤ l → l ≤ lmax → ∀ t : ℝ,
      (∑ j ∈ range (lmax + 1), vw.2 l l j * gtr l j t) * Real.sin t =
        q * (l * Plm l l (Real.cos t) (Real.sin t) / Real.sqrt (((l : ℝ) + 1) * l)) := by
  obtain ⟨vw, hvw, h2⟩ := legendreGradient_zonal_sectoral lmax he h4
  obtain ⟨vw', hvw', h1⟩ := legendreGradient_zonal_low lmax he h4
  rw [hvw] at hvw'
  cases hvw'
  refine ⟨vw, hvw, ?_⟩
  rintro ⟨q, hq⟩
  have a := hq 1 (le_refl _) (by omega) (Real.pi / 2)
  have b := hq 2 (by omega) (by omega) (Real.pi / 2)
  rw [h1 (Real.pi / 2), Plm_one_one, Real.sin_pi_div_two] at a
  rw [h2 2 (le_refl _) (by omega) (Real.pi / 2)] at b
  have s3 : 0 < Real.sqrt 3 := Real.sqrt_pos.2 (by norm_num)
  have s2 : 0 < Real.sqrt 2 := Real.sqrt_pos.2 (by norm_num)
  have hq1 : q = 1 := by
    norm_num at a
    field_simp at a
    linarith
  have hP : 0 < Plm 2 2 (Real.cos (Real.pi / 2)) (Real.sin (Real.pi / 2)) := by
    rw [show 2 = 1 + 1 from rfl, Plm_sectoral 1 (le_refl _), Plm_one_one, Real.sin_pi_div_two]
    positivity
  have hpos : 0 < ((2:ℕ):ℝ) * Plm 2 2 (Real.cos (Real.pi / 2)) (Real.sin (Real.pi / 2)) /
      Real.sqrt ((((2:ℕ) : ℝ) + 1) * ((2:ℕ):ℝ)) := by positivity
  rw [hq1] at b
  linarith

/-! ### linearity and domain -/

/-- Both outputs are linear in the coefficients. -/
theorem harmonicGradients_linear (LMIN LMAX : ℕ) (c s c' s' : ℕ → ℕ → ℝ) (a b phi th : ℝ) (g g' : ℝ × ℝ)
    (h : harmonicGradients LMIN LMAX c s phi th = some g) (h' : harmonicGradients LMIN LMAX c' s' phi th = some g') :
    harmonicGradients LMIN LMAX (fun l m => a * c l m + b * c' l m) (fun l m => a * s l m + b * s' l m) phi th =
      some (a * g.1 + b * g'.1, a * g.2 + b * g'.2) := by
  unfold harmonicGradients at h h' ⊢
  cases hv : legendreGradient LMAX LMAX with
  | none => rw [hv] at h; cases h
  | some vw =>
    rw [hv] at h h'
    cases h; cases h'
    simp only [Option.map_some, Option.some.injEq, Prod.mk.injEq]
    constructor
    all_goals
      rw [mul_sum, mul_sum, ← sum_add_distrib]
      apply sum_congr rfl; intro m _
      simp only [mul_add, mul_sum, sum_mul, ← sum_neg_distrib]
      simp only [← sum_add_distrib]
      apply sum_congr rfl; intro n _
      apply sum_congr rfl; intro l _
      split <;> ring

/-- For odd `LMAX`, or `LMAX < 4`, the function raises whatever the coefficients are. -/
theorem harmonicGradients_domain (LMIN LMAX : ℕ) (c s : ℕ → ℕ → ℝ) (phi th : ℝ) :
    harmonicGradients LMIN LMAX c s phi th = none ↔ LMAX % 2 = 1 ∨ LMAX < 4 := by
  rw [← fourierLegendre_domain]
  unfold harmonicGradients legendreGradient
  simp

end Verif.Fourier
