import Verif.Fourier.Props
import Verif.Fourier.GradModel

/-!
# C72: `legendre_gradient` and `harmonic_gradients`
-/
namespace Verif.Fourier
open Verif.Legendre Finset Nat

/-! ## derivative of the Legendre functions through neighbouring orders -/

theorem Plm_deriv (l m : ℕ) (t : ℝ) :
    HasDerivAt (fun t => Plm l m (Real.cos t) (Real.sin t))
      (nrm l m * (m * Real.sin t ^ (m - 1) * Real.cos t * dLeg l m (Real.cos t) -
        Real.sin t ^ (m + 1) * dLeg l (m + 1) (Real.cos t))) t := by
  have h1 : HasDerivAt (fun t => dLeg l m (Real.cos t)) (dLeg l (m + 1) (Real.cos t) * -Real.sin t) t := by
    have := ((D l m).hasDerivAt (Real.cos t)).comp t (Real.hasDerivAt_cos t)
    rw [← D_succ] at this
    exact this
  have h2 : HasDerivAt (fun t => Real.sin t ^ m) (m * Real.sin t ^ (m - 1) * Real.cos t) t :=
    (Real.hasDerivAt_sin t).pow m
  have h3 := (h2.mul h1).const_mul (nrm l m)
  have e : (fun t => Plm l m (Real.cos t) (Real.sin t)) =
      fun t => nrm l m * (Real.sin t ^ m * dLeg l m (Real.cos t)) := by
    funext t; unfold Plm; ring
  rw [e]
  exact h3.congr_deriv (by rw [pow_succ]; ring)

theorem nrm_up (l m : ℕ) (hm : 1 ≤ m) (hl : m < l) :
    Real.sqrt ((((l : ℝ) + m + 1)) * (l - m) / 4) * nrm l (m + 1) = 1 / 2 * nrm l m := by
  obtain ⟨j, rfl⟩ := Nat.exists_eq_add_of_lt hl
  have e := nrm_add (m + 1) j
  rw [show m + 1 + j = m + j + 1 by ring] at e
  rw [e, show m + j + 1 = m + (j + 1) by ring, nrm_add]
  have hd : dlt (m + 1) = dlt m := by unfold dlt; rw [if_neg (by omega), if_neg (by omega)]
  have := dlt_pos m
  rw [hd]
  have e2 : (((m + (j + 1) : ℕ) : ℝ) - m) = j + 1 := by push_cast; ring
  rw [e2]
  apply sqrt_mul_eq
  · positivity
  · norm_num
  · rw [show 2 * (m + 1) + j = 2 * m + (j + 1) + 1 by ring, factorial_succ (2 * m + (j + 1)), factorial_succ j]
    have h0 : ((2 * m + (j + 1))! : ℝ) ≠ 0 := by positivity
    have h1 : (2 * (m:ℝ) + (j + 1) + 1) ≠ 0 := by positivity
    push_cast
    field_simp
    ring

theorem nrm_down (l m : ℕ) (hm : 1 ≤ m) (hl : m < l) :
    Real.sqrt ((((l : ℝ) + m + 1)) * (l - m) / 4) * nrm l m = 1 / 2 * ((l + m + 1) * (l - m)) * nrm l (m + 1) := by
  have h := nrm_up l m hm hl
  have hp : (0:ℝ) < l - m := by have : (m:ℝ) < l := by exact_mod_cast hl
                                linarith
  have hx : (0:ℝ) ≤ ((l : ℝ) + m + 1) * (l - m) / 4 := by positivity
  have hs := Real.mul_self_sqrt hx
  set s := Real.sqrt ((((l : ℝ) + m + 1)) * (l - m) / 4)
  have : nrm l m = 2 * (s * nrm l (m + 1)) := by rw [h]; ring
  rw [this]
  linear_combination 2 * nrm l (m + 1) * hs

theorem nrm_zero_one (l : ℕ) (hl : 1 ≤ l) :
    Real.sqrt (((l : ℝ) + 1) * l / 2) * nrm l 1 = nrm l 0 := by
  obtain ⟨j, rfl⟩ := Nat.exists_eq_add_of_le hl
  rw [nrm_add 1 j]
  have e := nrm_add 0 (1 + j)
  rw [Nat.zero_add] at e
  rw [e, ← one_mul (Real.sqrt (dlt 0 * _ * _ / _))]
  apply sqrt_mul_eq
  · positivity
  · norm_num
  · rw [show 2 * 1 + j = j + 1 + 1 by ring, show 1 + j = j + 1 by ring,
      factorial_succ (j + 1), factorial_succ j]
    simp only [dlt]
    have h0 : (j ! : ℝ) ≠ 0 := by positivity
    push_cast
    field_simp
    norm_num
    ring

theorem nrm_one_zero (l : ℕ) (hl : 1 ≤ l) :
    Real.sqrt (((l : ℝ) + 1) * l / 2) * nrm l 0 = ((l : ℝ) + 1) * l / 2 * nrm l 1 := by
  have h := nrm_zero_one l hl
  have hx : (0:ℝ) ≤ ((l : ℝ) + 1) * l / 2 := by positivity
  have hs := Real.mul_self_sqrt hx
  rw [← h]
  linear_combination nrm l 1 * hs

/-- minus the derivative, in the form the code uses -/
noncomputable def negD (l m : ℕ) (t : ℝ) : ℝ :=
  if m = 0 then Real.sqrt (((l : ℝ) + 1) * l / 2) * Plm l 1 (Real.cos t) (Real.sin t)
  else (if m < l then Real.sqrt ((((l : ℝ) + m + 1)) * (l - m) / 4) * Plm l (m + 1) (Real.cos t) (Real.sin t) else 0) -
    (if m = 1 then Real.sqrt (((l : ℝ) + 1) * l / 2) * Plm l 0 (Real.cos t) (Real.sin t)
      else Real.sqrt ((((l : ℝ) + m)) * (l - m + 1) / 4) * Plm l (m - 1) (Real.cos t) (Real.sin t))

theorem negD_hasDerivAt (l m : ℕ) (h1 : 1 ≤ l) (hm : m ≤ l) (t : ℝ) :
    HasDerivAt (fun t => Plm l m (Real.cos t) (Real.sin t)) (-negD l m t) t := by
  have hd := Plm_deriv l m t
  refine hd.congr_deriv ?_
  unfold negD
  have hsq : Real.sin t ^ 2 = 1 - Real.cos t ^ 2 := by have := Real.sin_sq_add_cos_sq t; linarith
  match m with
  | 0 =>
    rw [if_pos rfl]
    unfold Plm
    have := nrm_zero_one l h1
    simp only [Nat.cast_zero, zero_mul, zero_sub, Nat.zero_add, pow_one]
    linear_combination (Real.sin t * dLeg l 1 (Real.cos t)) * this
  | m + 1 =>
    rw [if_neg (by omega)]
    -- upper neighbour
    have hup : (if m + 1 < l then Real.sqrt ((((l : ℝ) + (m + 1 : ℕ) + 1)) * (l - (m + 1 : ℕ)) / 4) *
          Plm l (m + 1 + 1) (Real.cos t) (Real.sin t) else 0) =
        1 / 2 * nrm l (m + 1) * (Real.sin t ^ (m + 2) * dLeg l (m + 2) (Real.cos t)) := by
      by_cases hl : m + 1 < l
      · rw [if_pos hl]
        have := nrm_up l (m + 1) (by omega) hl
        unfold Plm
        linear_combination (Real.sin t ^ (m + 2) * dLeg l (m + 2) (Real.cos t)) * this
      · rw [if_neg hl, dLeg_zero_of_lt l (m + 2) (by omega)]; ring
    have hlo : (if m + 1 = 1 then Real.sqrt (((l : ℝ) + 1) * l / 2) * Plm l 0 (Real.cos t) (Real.sin t)
        else Real.sqrt ((((l : ℝ) + (m + 1 : ℕ))) * (l - (m + 1 : ℕ) + 1) / 4) *
          Plm l (m + 1 - 1) (Real.cos t) (Real.sin t)) =
        1 / 2 * ((l + m + 1) * (l - m)) * nrm l (m + 1) * (Real.sin t ^ m * dLeg l m (Real.cos t)) := by
      by_cases h0 : m = 0
      · subst h0
        rw [if_pos rfl]
        have := nrm_one_zero l h1
        unfold Plm
        push_cast
        linear_combination (Real.sin t ^ 0 * dLeg l 0 (Real.cos t)) * this
      · rw [if_neg (by omega)]
        have := nrm_down l m (by omega) (by omega)
        unfold Plm
        rw [Nat.add_sub_cancel]
        push_cast
        rw [show ((l:ℝ) + (m + 1)) * (l - (m + 1) + 1) / 4 = (l + m + 1) * (l - m) / 4 by ring]
        linear_combination (Real.sin t ^ m * dLeg l m (Real.cos t)) * this
    rw [hup, hlo]
    have hode := dLeg_ode l m (Real.cos t)
    rw [Nat.add_sub_cancel]
    push_cast
    have e2 : Real.sin t ^ (m + 2) = Real.sin t ^ m * (1 - Real.cos t ^ 2) := by rw [pow_add, hsq]
    rw [show m + 1 + 1 = m + 2 by ring, e2]
    linear_combination (-1 / 2 * nrm l (m + 1) * Real.sin t ^ m) * hode

/-! ## C72 -/

/-- The first output of `legendre_gradient` holds the Fourier coefficients (sine series for even,
cosine series for odd orders) of minus the colatitude derivative of the Legendre functions, divided
by `sqrt(l(l+1))`. -/
theorem legendreGradient_meridional (lmax : ℕ) (he : lmax % 2 = 0) (h4 : 4 ≤ lmax) :
    ∃ vw, legendreGradient lmax lmax = some vw ∧ ∀ l m, 1 ≤ l → m ≤ l → l ≤ lmax → ∀ t : ℝ,
      HasDerivAt (fun t => Plm l m (Real.cos t) (Real.sin t))
        (-(Real.sqrt (((l : ℝ) + 1) * l) * ∑ j ∈ range (lmax + 1), vw.1 l m j *
          (if m % 2 = 0 then Real.sin (j * t) else Real.cos (j * t)))) t := by
  obtain ⟨P, hP, hg⟩ := fourierLegendre_correct lmax he h4
  unfold legendreGradient
  rw [hP]
  refine ⟨_, rfl, ?_⟩
  intro l m h1 hm hl t
  have hd := negD_hasDerivAt l m h1 hm t
  refine hd.congr_deriv ?_
  rw [neg_inj]
  dsimp only
  have hs : 0 < Real.sqrt (((l : ℝ) + 1) * l) := Real.sqrt_pos.2 (by positivity)
  rw [mul_sum]
  have hpar : ∀ k j, (k % 2 = (m + 1) % 2) → (if m % 2 = 0 then Real.sin ((j:ℝ) * t) else Real.cos (j * t)) =
      (if k % 2 = 0 then Real.cos (j * t) else Real.sin (j * t)) := by
    intro k j hk
    by_cases hm2 : m % 2 = 0
    · rw [if_pos hm2, if_neg (by omega)]
    · rw [if_neg hm2, if_pos (by omega)]
  unfold negD
  match m with
  | 0 =>
    rw [if_pos rfl, ← hg l 1 h1 hl t, mul_sum]
    apply sum_congr rfl
    intro j _
    rw [if_pos rfl, if_pos h1]
    unfold vRaw
    rw [if_pos (show 1 ≤ l ∧ l ≤ lmax ∧ 0 = 0 from ⟨h1, hl, rfl⟩), if_neg (show ¬ (1 ≤ l ∧ l ≤ lmax ∧ 0 = 1) by omega), if_neg (show ¬ (2 ≤ l ∧ l ≤ lmax ∧ 2 ≤ 0 ∧ 0 ≤ l) by omega), hpar 1 j (by omega)]
    field_simp
    ring
  | m + 1 =>
    rw [if_neg (by omega)]
    have hup : (if m + 1 < l then Real.sqrt ((((l : ℝ) + (m + 1 : ℕ) + 1)) * (l - (m + 1 : ℕ)) / 4) *
          Plm l (m + 1 + 1) (Real.cos t) (Real.sin t) else 0) =
        ∑ j ∈ range (lmax + 1), (if 2 ≤ l ∧ l ≤ lmax ∧ 1 ≤ m + 1 ∧ m + 1 < l then
          Real.sqrt ((((l + 2 + (m + 1 - 1) : ℕ) : ℝ)) * ((l - 1 - (m + 1 - 1) : ℕ) : ℝ) / 4) * P l (m + 1 + 1) j
          else 0) * (if (m + 1) % 2 = 0 then Real.sin (j * t) else Real.cos (j * t)) := by
      by_cases hlt : m + 1 < l
      · rw [if_pos hlt, ← hg l (m + 1 + 1) (by omega) hl t, mul_sum]
        apply sum_congr rfl
        intro j _
        rw [if_pos (show 2 ≤ l ∧ l ≤ lmax ∧ 1 ≤ m + 1 ∧ m + 1 < l from ⟨by omega, hl, by omega, hlt⟩), hpar (m + 1 + 1) j rfl]
        have e : ((l - 1 - (m + 1 - 1) : ℕ) : ℝ) = (l : ℝ) - (m + 1 : ℕ) := by
          rw [show l - 1 - (m + 1 - 1) = l - (m + 1) by omega, Nat.cast_sub (by omega)]
        rw [e]
        push_cast
        rw [show (l:ℝ) + 2 + m = l + (m + 1) + 1 by ring]
        ring
      · rw [if_neg hlt]
        symm
        apply sum_eq_zero
        intro j _
        rw [if_neg (by omega), zero_mul]
    have hlo : (if m + 1 = 1 then Real.sqrt (((l : ℝ) + 1) * l / 2) * Plm l 0 (Real.cos t) (Real.sin t)
        else Real.sqrt ((((l : ℝ) + (m + 1 : ℕ))) * (l - (m + 1 : ℕ) + 1) / 4) *
          Plm l (m + 1 - 1) (Real.cos t) (Real.sin t)) =
        ∑ j ∈ range (lmax + 1), (if 1 ≤ l ∧ l ≤ lmax ∧ m + 1 = 1 then Real.sqrt (((l : ℝ) + 1) * l / 2) * P l 0 j
          else if 2 ≤ l ∧ l ≤ lmax ∧ 2 ≤ m + 1 ∧ m + 1 ≤ l then
          Real.sqrt ((((l + 2 + (m + 1 - 2) : ℕ) : ℝ)) * ((l - 1 - (m + 1 - 2) : ℕ) : ℝ) / 4) * P l (m + 1 - 1) j
          else 0) * (if (m + 1) % 2 = 0 then Real.sin (j * t) else Real.cos (j * t)) := by
      by_cases h0 : m = 0
      · subst h0
        rw [if_pos rfl, ← hg l 0 (by omega) hl t, mul_sum]
        apply sum_congr rfl
        intro j _
        rw [if_pos (show 1 ≤ l ∧ l ≤ lmax ∧ 0 + 1 = 1 from ⟨h1, hl, rfl⟩), hpar 0 j rfl]
        ring
      · rw [if_neg (by omega), Nat.add_sub_cancel, ← hg l m (by omega) hl t, mul_sum]
        apply sum_congr rfl
        intro j _
        rw [if_neg (show ¬ (1 ≤ l ∧ l ≤ lmax ∧ m + 1 = 1) by omega), if_pos (show 2 ≤ l ∧ l ≤ lmax ∧ 2 ≤ m + 1 ∧ m + 1 ≤ l from ⟨by omega, hl, by omega, hm⟩),
          hpar m j (by omega)]
        have e : ((l - 1 - (m + 1 - 2) : ℕ) : ℝ) = (l : ℝ) - (m + 1 : ℕ) + 1 := by
          rw [show l - 1 - (m + 1 - 2) = l - (m + 1) + 1 by omega]; push_cast [Nat.cast_sub hm]; ring
        have e2 : ((l + 2 + (m + 1 - 2) : ℕ) : ℝ) = (l : ℝ) + (m + 1 : ℕ) := by
          rw [show l + 2 + (m + 1 - 2) = l + (m + 1) by omega]; push_cast; ring
        rw [e, e2]
        ring
    rw [hup, hlo, ← sum_sub_distrib]
    apply sum_congr rfl
    intro j _
    rw [if_neg (show ¬ (m + 1 = 0) by omega), if_pos h1]
    unfold vRaw
    rw [if_neg (show ¬ (1 ≤ l ∧ l ≤ lmax ∧ m + 1 = 0) by omega)]
    field_simp

end Verif.Fourier
