import Verif.Synthesis.Model
import Verif.Legendre.Colombo
import Verif.Common.Sum
import Mathlib.Algebra.BigOperators.Ring.Finset
import Mathlib.Algebra.Order.BigOperators.Group.LocallyFinite

/-!
# Property C34: Clenshaw summation equals the direct sum
-/
namespace Verif.Synthesis
open Verif.Legendre

/-- Specification: the spherical harmonic sum with degree factors `f`,
`sum_l sum_{m<=l} f_l P_lm(t,u) (C_lm cos m phi + S_lm sin m phi)` -/
noncomputable def synth (LMAX : ℕ) (f : ℕ → ℝ) (clm slm : ℕ → ℕ → ℝ) (t u phi : ℝ) : ℝ :=
  ∑ l ∈ Finset.range (LMAX + 1), ∑ m ∈ Finset.range (l + 1),
    f l * Plm l m t u * (clm l m * Real.cos (m * phi) + slm l m * Real.sin (m * phi))

theorem alm_sub (m : ℕ) : alm (m + 1) m = Real.sqrt (2 * m + 3) := by
  unfold alm
  congr 1
  push_cast
  have h1 : (m + 1 + m : ℝ) ≠ 0 := by positivity
  have h2 : (m + 1 - m : ℝ) = 1 := by ring
  rw [h2]
  field_simp
  ring

theorem clA_eq (t : ℝ) (m l : ℕ) : clA t m l = alm (l + 1) m * t := by
  unfold clA alm
  by_cases h : m = 0
  · subst h
    rw [if_pos rfl]
    congr 3 <;> (push_cast; ring)
  · rw [if_neg h]
    congr 3 <;> (push_cast; ring)

theorem clB_eq (m l : ℕ) : clB m l = blm (l + 2) m := by
  unfold clB blm
  by_cases h : m = 0
  · subst h
    rw [if_pos rfl]
    congr 2 <;> (push_cast; ring)
  · rw [if_neg h]
    congr 2 <;> (push_cast; ring)

theorem clATop_eq (t : ℝ) (m lmax : ℕ) : clATop t m lmax = alm lmax m * t := by
  unfold clATop alm
  by_cases h : m = 0 ∧ m + 1 < lmax
  · rw [if_pos h, h.1]
    congr 3
    push_cast; ring
  · rw [if_neg h]

/-- the bracket left over by the backward recursion -/
theorem bracket (t u : ℝ) (m k : ℕ) (h : m + 1 ≤ k) :
    Plm (k + 1) m t u - alm (k + 1) m * t * Plm k m t u = - (blm (k + 1) m * Plm (k - 1) m t u) := by
  have := colRec t u (k + 1) m (by omega) (by omega)
  rw [Nat.add_sub_cancel, show k + 1 - 2 = k - 1 by omega] at this
  linarith

theorem clLoop_correct (t u : ℝ) (m lmax : ℕ) (h : m + 1 ≤ lmax) (g : ℕ → ℝ) :
    clLoop t m lmax g * Plm m m t u = ∑ l ∈ Finset.Ico m (lmax + 1), g l * Plm l m t u := by
  have inv : ∀ n, n + (m + 1) ≤ lmax → ∃ s : ℝ × ℝ,
      (List.range n).foldl (fun s i => clStep t m g s (lmax - 2 - i))
        (clATop t m lmax * g lmax + g (lmax - 1), g lmax) = s ∧
      s.1 * Plm (lmax - 1 - n) m t u + s.2 * (Plm (lmax - 1 - n + 1) m t u -
          alm (lmax - 1 - n + 1) m * t * Plm (lmax - 1 - n) m t u) =
        ∑ l ∈ Finset.Ico (lmax - 1 - n) (lmax + 1), g l * Plm l m t u := by
    intro n
    induction n with
    | zero =>
      intro _
      refine ⟨_, rfl, ?_⟩
      obtain ⟨k, rfl⟩ : ∃ k, lmax = k + 1 := ⟨lmax - 1, by omega⟩
      simp only [Nat.add_sub_cancel, Nat.sub_zero, clATop_eq]
      rw [Finset.sum_Ico_succ_top (by omega), Finset.sum_Ico_succ_top (by omega), Finset.Ico_self,
        Finset.sum_empty]
      simp only [List.range_zero, List.foldl_nil]
      ring
    | succ n ih =>
      intro hn
      obtain ⟨s, hs, hv⟩ := ih (by omega)
      rw [List.range_succ, List.foldl_append, hs]
      refine ⟨_, rfl, ?_⟩
      obtain ⟨k, hk⟩ : ∃ k, lmax - 1 - n = k + 1 := ⟨lmax - 1 - n - 1, by omega⟩
      have hk2 : lmax - 2 - n = k := by omega
      have hk3 : lmax - 1 - (n + 1) = k := by omega
      rw [hk] at hv
      have hb := bracket t u m (k + 1) (by omega)
      rw [hb, Nat.add_sub_cancel] at hv
      simp only [List.foldl_cons, List.foldl_nil, clStep, hk2, hk3, clA_eq, clB_eq]
      rw [Finset.sum_eq_sum_Ico_succ_bot (by omega), ← hv]
      ring
  obtain ⟨s, hs, hv⟩ := inv (lmax - 1 - m) (by omega)
  rw [show lmax - 1 - (lmax - 1 - m) = m by omega] at hv
  unfold clLoop
  rw [hs, ← hv, alm_sub, Plm_sub]
  ring

theorem clenshawSm_correct (scale t u : ℝ) (hs : scale ≠ 0) (f : ℕ → ℝ) (m : ℕ)
    (clm slm : ℕ → ℕ → ℝ) (lmax : ℕ) (hm : m ≤ lmax) :
    (clenshawSm scale t f m clm slm lmax).1 * Plm m m t u =
        ∑ l ∈ Finset.Ico m (lmax + 1), f l * clm l m * Plm l m t u ∧
      (m ≠ 0 → (clenshawSm scale t f m clm slm lmax).2 * Plm m m t u =
        ∑ l ∈ Finset.Ico m (lmax + 1), f l * slm l m * Plm l m t u) := by
  have key : ∀ c : ℕ → ℕ → ℝ, m + 1 ≤ lmax →
      clLoop t m lmax (fun l => f l * (scale * c l m)) / scale * Plm m m t u =
        ∑ l ∈ Finset.Ico m (lmax + 1), f l * c l m * Plm l m t u := by
    intro c h
    rw [div_mul_eq_mul_div, clLoop_correct t u m lmax h, div_eq_mul_inv, Finset.sum_mul]
    apply Finset.sum_congr rfl
    intro l _
    field_simp
  unfold clenshawSm
  simp only
  by_cases h1 : m = lmax
  · subst h1
    rw [if_pos rfl]
    simp only [Nat.Ico_succ_singleton, Finset.sum_singleton]
    constructor
    · field_simp
    · intro _; field_simp
  · rw [if_neg h1]
    by_cases h2 : m + 1 = lmax
    · have e : ∀ c : ℕ → ℕ → ℝ, clATop t m lmax * f lmax * (scale * c lmax (lmax - 1)) +
          f (lmax - 1) * (scale * c (lmax - 1) (lmax - 1)) = clLoop t m lmax (fun l => f l * (scale * c l m)) := by
        intro c
        unfold clLoop
        rw [show lmax - 1 - m = 0 by omega, show lmax - 1 = m by omega]
        simp only [List.range_zero, List.foldl_nil]
        ring
      rw [if_pos h2]
      simp only [e]
      exact ⟨key clm (by omega), fun _ => key slm (by omega)⟩
    · rw [if_neg h2]
      by_cases h3 : m = 0
      · rw [if_pos h3]
        exact ⟨key clm (by omega), fun h => absurd h3 h⟩
      · rw [if_neg h3]
        exact ⟨key clm (by omega), fun _ => key slm (by omega)⟩

/-- C34: for every maximum degree from 1, every degree factor, coefficient, point and non-zero scale,
`clenshaw_summation` returns the spherical harmonic sum; the scale does not enter the result -/
theorem clenshaw_correct (scale : ℝ) (hs : scale ≠ 0) (f : ℕ → ℝ) (clm slm : ℕ → ℕ → ℝ) (LMAX : ℕ)
    (hL : 1 ≤ LMAX) (lon lat : ℝ) :
    clenshaw scale f clm slm LMAX lon lat =
      synth LMAX f clm slm (Real.cos ((90 - lat) * Real.pi / 180))
        (Real.sin ((90 - lat) * Real.pi / 180)) (lon * Real.pi / 180) := by
  unfold clenshaw
  simp only
  set t := Real.cos ((90 - lat) * Real.pi / 180)
  set u := Real.sin ((90 - lat) * Real.pi / 180)
  set phi := lon * Real.pi / 180
  set smc : ℕ → ℝ × ℝ := fun m => clenshawSm scale t f m clm slm LMAX with hsmc
  -- contribution of order m
  obtain ⟨X, hX⟩ : ∃ X : ℕ → ℝ, X = fun m => ((smc m).1 * Real.cos (m * phi) + (smc m).2 * Real.sin (m * phi)) := ⟨_, rfl⟩
  set init : CS := ⟨_, _, _⟩
  have inv : ∀ n, n + 1 ≤ LMAX → ∃ r,
      (List.range n).foldl (fun s i => csStep u phi smc s (LMAX - 1 - i)) init = r ∧
      (∀ k, LMAX - n ≤ k → k ≤ LMAX + 1 → r.c k = Real.cos (k * phi) ∧ r.s k = Real.sin (k * phi)) ∧
      r.sm * Plm (LMAX - n) (LMAX - n) t u = ∑ k ∈ Finset.Ico (LMAX - n) (LMAX + 1), X k * Plm k k t u := by
    intro n
    induction n with
    | zero =>
      intro _
      refine ⟨_, rfl, ?_, ?_⟩
      · intro k h1 h2
        simp only [List.range_zero, List.foldl_nil, init, set1]
        by_cases c : k = LMAX
        · rw [if_pos c, if_pos c, c]; exact ⟨rfl, rfl⟩
        · rw [if_neg c, if_neg c, if_pos (by omega), if_pos (by omega), show k = LMAX + 1 by omega]
          exact ⟨rfl, rfl⟩
      · simp only [Nat.sub_zero, List.range_zero, List.foldl_nil, Nat.Ico_succ_singleton,
          Finset.sum_singleton, hX, init, set1, if_true, hsmc]
    | succ n ih =>
      intro hn
      obtain ⟨r, hr, hc, hv⟩ := ih (by omega)
      rw [List.range_succ, List.foldl_append, hr]
      obtain ⟨k, hk⟩ : ∃ k, LMAX - n = k + 1 := ⟨LMAX - n - 1, by omega⟩
      have hk2 : LMAX - 1 - n = k := by omega
      have hk3 : LMAX - (n + 1) = k := by omega
      rw [hk] at hv hc
      rw [hk3]
      have hcc : 2 * Real.cos phi * r.c (k + 1) - r.c (k + 2) = Real.cos (k * phi) := by
        rw [(hc (k + 1) le_rfl (by omega)).1, (hc (k + 2) (by omega) (by omega)).1]
        have e1 : ((k + 2 : ℕ) : ℝ) * phi = ((k + 1 : ℕ) : ℝ) * phi + phi := by push_cast; ring
        have e2 : (k : ℝ) * phi = ((k + 1 : ℕ) : ℝ) * phi - phi := by push_cast; ring
        rw [e1, e2, Real.cos_add, Real.cos_sub]; ring
      have hss : 2 * Real.cos phi * r.s (k + 1) - r.s (k + 2) = Real.sin (k * phi) := by
        rw [(hc (k + 1) le_rfl (by omega)).2, (hc (k + 2) (by omega) (by omega)).2]
        have e1 : ((k + 2 : ℕ) : ℝ) * phi = ((k + 1 : ℕ) : ℝ) * phi + phi := by push_cast; ring
        have e2 : (k : ℝ) * phi = ((k + 1 : ℕ) : ℝ) * phi - phi := by push_cast; ring
        rw [e1, e2, Real.sin_add, Real.sin_sub]; ring
      refine ⟨_, rfl, ?_, ?_⟩
      · intro j h1 h2
        simp only [List.foldl_cons, List.foldl_nil, csStep, hk2, hcc, hss, set1]
        by_cases c : j = k
        · rw [if_pos c, if_pos c, c]; exact ⟨rfl, rfl⟩
        · rw [if_neg c, if_neg c]; exact hc j (by omega) h2
      · simp only [List.foldl_cons, List.foldl_nil, csStep, hk2, hcc, hss, set1, if_true]
        rw [Finset.sum_eq_sum_Ico_succ_bot (by omega), ← hv, Plm_sectoral k (by omega)]
        have e3 : ((2 * ((k + 1 : ℕ) : ℝ) + 1) / (2 * ((k + 1 : ℕ) : ℝ))) = (2 * k + 3) / (2 * k + 2) := by
          congr 1 <;> (push_cast; ring)
        rw [e3]
        simp only [hX]
        ring
  obtain ⟨r, hr, -, hv⟩ := inv (LMAX - 1) (by omega)
  rw [show LMAX - (LMAX - 1) = 1 by omega, Plm_one_one] at hv
  rw [hr, show Real.sqrt 3 * u * r.sm = r.sm * (Real.sqrt 3 * u) by ring, hv]
  have h0 : (smc 0).1 = X 0 * Plm 0 0 t u := by
    simp [hX, Plm_zero_zero]
  rw [h0, add_comm, ← Finset.sum_eq_sum_Ico_succ_bot (f := fun k => X k * Plm k k t u) (by omega)]
  have hXm : ∀ m ∈ Finset.Ico 0 (LMAX + 1), X m * Plm m m t u = ∑ l ∈ Finset.Ico m (LMAX + 1),
      f l * Plm l m t u * (clm l m * Real.cos (m * phi) + slm l m * Real.sin (m * phi)) := by
    intro m hm
    have hm' : m ≤ LMAX := by have := Finset.mem_Ico.1 hm; omega
    obtain ⟨h1, h2⟩ := clenshawSm_correct scale t u hs f m clm slm LMAX hm'
    have : X m * Plm m m t u = (smc m).1 * Plm m m t u * Real.cos (m * phi) +
        (smc m).2 * Plm m m t u * Real.sin (m * phi) := by rw [hX]; ring
    rw [this, show (smc m).1 * Plm m m t u = _ from h1]
    have h2' : (smc m).2 * Plm m m t u * Real.sin (m * phi) =
        (∑ l ∈ Finset.Ico m (LMAX + 1), f l * slm l m * Plm l m t u) * Real.sin (m * phi) := by
      by_cases c : m = 0
      · subst c; simp
      · rw [show (smc m).2 * Plm m m t u = _ from h2 c]
    rw [h2', Finset.sum_mul, Finset.sum_mul, ← Finset.sum_add_distrib]
    apply Finset.sum_congr rfl
    intro l _; ring
  rw [Finset.sum_congr rfl hXm]
  unfold synth
  apply Finset.sum_comm'
  intro m l
  simp only [Finset.mem_Ico, Finset.mem_range]
  omega

/-- non-vacuity: the scale factor of the code, degree 60, any point -/
example (clm slm : ℕ → ℕ → ℝ) (f : ℕ → ℝ) : clenshaw (1 / 10 ^ 280) f clm slm 60 12 (-33) =
    synth 60 f clm slm (Real.cos ((90 - -33) * Real.pi / 180)) (Real.sin ((90 - -33) * Real.pi / 180))
      (12 * Real.pi / 180) :=
  clenshaw_correct _ (by positivity) f clm slm 60 (by norm_num) 12 (-33)

/-- C34: sine coefficients of order zero have no influence -/
theorem clenshaw_order_zero_sine (scale : ℝ) (hs : scale ≠ 0) (f : ℕ → ℝ) (clm slm slm' : ℕ → ℕ → ℝ)
    (LMAX : ℕ) (hL : 1 ≤ LMAX) (lon lat : ℝ) (h : ∀ l m, 1 ≤ m → slm l m = slm' l m) :
    clenshaw scale f clm slm LMAX lon lat = clenshaw scale f clm slm' LMAX lon lat := by
  rw [clenshaw_correct scale hs f clm slm LMAX hL, clenshaw_correct scale hs f clm slm' LMAX hL]
  unfold synth
  apply Finset.sum_congr rfl; intro l _
  apply Finset.sum_congr rfl; intro m _
  by_cases c : m = 0
  · subst c; simp
  · rw [h l m (by omega)]

/-- C34: with the default `LMAX = 0` the result is not the degree-0 sum `f_0 C_00` but
`(1 + sqrt(3) sin(th)) f_0 C_00` -/
theorem clenshaw_degree_zero (scale : ℝ) (hs : scale ≠ 0) (f : ℕ → ℝ) (clm slm : ℕ → ℕ → ℝ) (lon lat : ℝ) :
    clenshaw scale f clm slm 0 lon lat =
      (1 + Real.sqrt 3 * Real.sin ((90 - lat) * Real.pi / 180)) * (f 0 * clm 0 0) := by
  unfold clenshaw clenshawSm
  simp [set1]
  field_simp
  ring

/-- the deviation is real: at the equator the factor is `1 + sqrt 3` -/
example (f : ℕ → ℝ) (clm slm : ℕ → ℕ → ℝ) (h : f 0 * clm 0 0 ≠ 0) :
    clenshaw 1 f clm slm 0 0 0 ≠ f 0 * clm 0 0 := by
  rw [clenshaw_degree_zero 1 one_ne_zero]
  have : (90 - 0) * Real.pi / 180 = Real.pi / 2 := by ring
  rw [this, Real.sin_pi_div_two]
  intro e
  have h3 : Real.sqrt 3 ≠ 0 := by positivity
  have : Real.sqrt 3 * (f 0 * clm 0 0) = 0 := by linear_combination e
  exact (mul_ne_zero h3 h) this

end Verif.Synthesis
