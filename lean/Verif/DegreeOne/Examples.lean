import Verif.DegreeOne.Props

/-!
# C74: grids that satisfy the hypotheses
-/
namespace Verif.DegreeOne
open Verif.Units Verif.Analysis Finset

/-- C74: every regular grid that covers all longitudes once and whose latitudes are symmetric about the
equator is global in the sense of the theorems (more than one longitude) -/
theorem regular_global (g : Grid) (a : ℝ) (hn : 2 ≤ g.nlon)
    (hlon : ∀ k < g.nlon, g.lon k = a + 360 * k / g.nlon)
    (hlat : ∀ i < g.nlat, g.lat (g.nlat - 1 - i) = -g.lat i) : GlobalGrid g := by
  have hN : g.nlon ≠ 0 := by omega
  have hNr : (g.nlon : ℝ) ≠ 0 := by exact_mod_cast hN
  have hreg : ∀ k < g.nlon, g.lon k * Real.pi / 180 = reg (a * Real.pi / 180) g.nlon k := by
    intro k hk
    rw [hlon k hk]; unfold reg
    field_simp
    ring
  have hdvd : ¬ (g.nlon : ℤ) ∣ 1 := by
    intro h
    have := Int.le_of_dvd one_pos h
    omega
  have hc := cos_sum_zero g.nlon 1 hdvd hN (a * Real.pi / 180)
  have hs := sin_sum_zero g.nlon 1 hdvd hN (a * Real.pi / 180)
  simp only [Int.cast_one, one_mul] at hc hs
  intro j
  unfold gridInt
  rw [div_eq_zero_iff]; left
  fin_cases j
  · apply sum_eq_zero; intro k _
    have h1 := sum_range_reflect (fun i => area g i * unitVec g 0 k i) g.nlat
    have h2 : ∑ i ∈ range g.nlat, area g (g.nlat - 1 - i) * unitVec g 0 k (g.nlat - 1 - i) =
        ∑ i ∈ range g.nlat, -(area g i * unitVec g 0 k i) := by
      apply sum_congr rfl; intro i hi
      rw [mem_range] at hi
      unfold area unitVec
      rw [hlat i hi]
      have e : (90 - -g.lat i) * Real.pi / 180 = Real.pi - (90 - g.lat i) * Real.pi / 180 := by ring
      simp only [Matrix.cons_val_zero]
      rw [e, Real.sin_pi_sub, Real.cos_pi_sub]
      ring
    rw [h2, sum_neg_distrib] at h1
    show ∑ i ∈ range g.nlat, area g i * unitVec g 0 k i = 0
    linarith
  · rw [sum_comm]
    apply sum_eq_zero; intro i _
    have : ∑ k ∈ range g.nlon, area g i * unitVec g 1 k i = area g i *
        (Real.sin ((90 - g.lat i) * Real.pi / 180) * ∑ k ∈ range g.nlon, Real.cos (reg (a * Real.pi / 180) g.nlon k)) := by
      rw [mul_sum, mul_sum]
      apply sum_congr rfl; intro k hk
      rw [← hreg k (mem_range.1 hk)]; rfl
    rw [hc] at this
    simpa using this
  · rw [sum_comm]
    apply sum_eq_zero; intro i _
    have : ∑ k ∈ range g.nlon, area g i * unitVec g 2 k i = area g i *
        (Real.sin ((90 - g.lat i) * Real.pi / 180) * ∑ k ∈ range g.nlon, Real.sin (reg (a * Real.pi / 180) g.nlon k)) := by
      rw [mul_sum, mul_sum]
      apply sum_congr rfl; intro k hk
      rw [← hreg k (mem_range.1 hk)]; rfl
    rw [hs] at this
    simpa using this

/-- a coarse grid: four longitudes, latitudes -60, 0, 60; the northern row is land -/
noncomputable def coarse : Grid where
  nlon := 4
  nlat := 3
  lon k := 90 * k
  lat i := 60 * i - 60
  mask i _ := if i = 2 then 1 else 0

theorem coarse_usable : Usable coarse Earth.default (fun _ => 0) where
  ok := default_ok
  lon2 := by decide
  lat2 := by decide
  ne := by decide
  lats := by
    intro i hi
    have h1 : (i : ℝ) ≤ 2 := by exact_mod_cast (by unfold coarse at hi; dsimp only at hi; omega : i ≤ 2)
    have h0 : (0 : ℝ) ≤ i := Nat.cast_nonneg i
    unfold coarse; dsimp only
    constructor <;> linarith
  dlon := by unfold coarse; norm_num
  dlat := by unfold coarse; norm_num
  k0 := by norm_num
  k1 := by norm_num

theorem coarse_global : GlobalGrid coarse := by
  apply regular_global coarse 0 (by decide)
  · intro k _; unfold coarse; push_cast; ring
  · intro i hi
    unfold coarse at hi ⊢
    dsimp only at hi ⊢
    have : i = 0 ∨ i = 1 ∨ i = 2 := by omega
    rcases this with rfl | rfl | rfl <;> norm_num

theorem coarse_full : OceanFull coarse := by
  intro x c h
  have l0 : coarse.lat 0 = -60 := by unfold coarse; norm_num
  have l1 : coarse.lat 1 = 0 := by unfold coarse; norm_num
  have m0 : ∀ k, ¬ (1 ≤ coarse.mask 0 k ∧ coarse.mask 0 k ≤ 3) := by intro k; unfold coarse; norm_num
  have m1 : ∀ k, ¬ (1 ≤ coarse.mask 1 k ∧ coarse.mask 1 k ≤ 3) := by intro k; unfold coarse; norm_num
  have o0 : coarse.lon 0 * Real.pi / 180 = 0 := by unfold coarse; norm_num
  have o1 : coarse.lon 1 * Real.pi / 180 = Real.pi / 2 := by unfold coarse; push_cast; ring
  have o2 : coarse.lon 2 * Real.pi / 180 = Real.pi := by unfold coarse; push_cast; ring
  have t1 : (90 - (0 : ℝ)) * Real.pi / 180 = Real.pi / 2 := by ring
  have t0 : (90 - (-60 : ℝ)) * Real.pi / 180 = Real.pi - Real.pi / 6 := by ring
  have a := h 0 (by decide) 1 (by decide) (m1 0) (by rw [l1]; norm_num) (by rw [l1]; norm_num)
  have b := h 1 (by decide) 1 (by decide) (m1 1) (by rw [l1]; norm_num) (by rw [l1]; norm_num)
  have d := h 2 (by decide) 1 (by decide) (m1 2) (by rw [l1]; norm_num) (by rw [l1]; norm_num)
  have e := h 0 (by decide) 0 (by decide) (m0 0) (by rw [l0]; norm_num) (by rw [l0]; norm_num)
  unfold unitVec at a b d e
  simp only [Fin.sum_univ_three] at a b d e
  simp only [Matrix.cons_val_zero, Matrix.cons_val_one, Matrix.cons_val, l0, l1, t1, t0, o0, o1, o2, Real.cos_pi_div_two,
    Real.sin_pi_div_two, Real.cos_zero, Real.sin_zero, Real.cos_pi, Real.sin_pi, Real.cos_pi_sub, Real.sin_pi_sub,
    Real.cos_pi_div_six, Real.sin_pi_div_six] at a b d e
  have hc : c = 0 := by linarith
  have h1 : x 1 = 0 := by linarith
  have h2 : x 2 = 0 := by linarith
  have h0 : x 0 = 0 := by
    have h3 : 0 < Real.sqrt 3 := by positivity
    rw [h1, hc] at e
    have : x 0 * Real.sqrt 3 = 0 := by linarith
    exact (mul_eq_zero.1 this).resolve_right h3.ne'
  refine ⟨?_, hc⟩
  funext j
  fin_cases j
  · exact h0
  · exact h1
  · exact h2

/-- the hypotheses of C74 can be met together: the script prepares a setup on this grid to which all
theorems apply, and for any months there are geocenters in balance with them -/
example (d : ℕ → Month) : ∃ s : Setup, Prepared s ∧ s.g = coarse ∧ GlobalGrid s.g ∧ OceanFull s.g ∧ OceanSpans s.g ∧
    ∃ tau : ℕ → V3, ∀ t, OceanBalance s (d t) (obpTerm true (d t)) (tau t) (asMass s (d t) (tau t)) := by
  obtain ⟨s, -, hp, hg, -⟩ := setup_succeeds coarse Earth.default 0 1 one_ne_zero (fun _ => 0) (fun _ => 0)
    (fun _ => 0) 60 (by norm_num) none 60 le_rfl 300 (by norm_num) (by norm_num) coarse_usable
  have h1 : GlobalGrid s.g := by rw [hg]; exact coarse_global
  have h2 : OceanFull s.g := by rw [hg]; exact coarse_full
  choose tau ht using fun t => (balanced_geocenter s hp h1 h2 true (d t)).exists
  exact ⟨s, hp, hg, h1, h2, fun x hx => (h2 x 0 hx).1, tau, ht⟩

end Verif.DegreeOne
