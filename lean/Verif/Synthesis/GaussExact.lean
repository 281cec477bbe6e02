import Verif.Synthesis.Gauss
import Verif.Legendre.Gaussian
import Mathlib.Analysis.Real.Pi.Bounds

/-!
# Property C36: the weights are the Legendre coefficients of the Gaussian

Specification: `gaussLeg b l = ∫_{-1}^{1} P_l(x) exp(-b (1-x)) dx` (Legendre/Gaussian.lean).
-/
namespace Verif.Synthesis
open Verif.Legendre

/-- the loop seeded with multiples of the exact coefficients of degrees 0 and 1 returns, from degree 2
on, the larger of the exact coefficient and the cutoff -/
theorem gLoop_exact (b c cutoff : ℝ) (hb : 0 < b) (hc : 0 < c) (LMAX : ℕ) (hL : 1 ≤ LMAX) (wl : ℕ → ℝ)
    (h0 : wl 0 = c * gaussLeg b 0) (h1 : wl 1 = c * gaussLeg b 1) :
    gLoop b cutoff LMAX 2 true wl 0 = c * gaussLeg b 0 ∧
    gLoop b cutoff LMAX 2 true wl 1 = c * gaussLeg b 1 ∧
    ∀ l, 2 ≤ l → l ≤ LMAX → gLoop b cutoff LMAX 2 true wl l = max (c * gaussLeg b l) cutoff := by
  obtain ⟨N, hN1, hN2, h3, h4, h5, h6⟩ := gLoop_spec b cutoff LMAX _ 2 wl rfl le_rfl (by omega)
  have hrec : ∀ k, 2 ≤ k → c * gaussLeg b k =
      (1 - 2 * k) / b * (c * gaussLeg b (k - 1)) + c * gaussLeg b (k - 2) := by
    intro k hk
    rw [gaussLeg_rec b hb.ne' k hk]; ring
  have key : ∀ k < N, gLoop b cutoff LMAX 2 true wl k = c * gaussLeg b k := by
    intro k
    induction k using Nat.strong_induction_on with
    | _ k ih =>
      intro hk
      rcases k with _ | _ | k
      · rw [h3 0 (by norm_num), h0]
      · rw [h3 1 (by norm_num), h1]
      · rw [(h4 (k + 2) (by omega) hk).1, hrec (k + 2) (by omega), ih (k + 2 - 1) (by omega) (by omega),
          ih (k + 2 - 2) (by omega) (by omega)]
  refine ⟨by rw [h3 0 (by norm_num), h0], by rw [h3 1 (by norm_num), h1], ?_⟩
  intro l hl hlL
  by_cases hlN : l < N
  · have := (h4 l hl hlN).2
    rw [key l hlN] at this ⊢
    exact (max_eq_left this).symm
  · rw [h5 l (by omega) hlL]
    have hN : c * gaussLeg b N < cutoff := by
      have := h6 (by omega)
      rw [key (N - 1) (by omega), key (N - 2) (by omega), ← hrec N hN1] at this
      exact this
    have := (gaussLeg_anti b hb).antitone (not_lt.1 hlN)
    rw [max_eq_right]
    nlinarith

/-- C36: `gauss_weights(hw, LMAX)` returns `1/(2 pi)` times the Legendre coefficients of the Gaussian
`exp(-b (1 - cos α))` divided by the coefficient of degree 0, with `b = ln 2/(1 - cos(hw/6371 km))`; from
degree 2 on a value below the cutoff is replaced by the cutoff -/
theorem gaussWeights_exact (hw cutoff : ℝ) (LMAX : ℕ) (hL : 1 ≤ LMAX) (hc : cutoff ≤ hw)
    (hb : Real.cos (hw / 6371) < 1) :
    ∃ wl, gaussWeights hw LMAX cutoff = some wl ∧
      wl 0 = 1 / (2 * Real.pi) ∧
      wl 1 = 1 / (2 * Real.pi) * (gaussLeg (gaussB hw) 1 / gaussLeg (gaussB hw) 0) ∧
      ∀ l, 2 ≤ l → l ≤ LMAX →
        wl l = max (1 / (2 * Real.pi) * (gaussLeg (gaussB hw) l / gaussLeg (gaussB hw) 0)) cutoff := by
  have hB : 0 < gaussB hw := div_pos (Real.log_pos (by norm_num)) (by linarith)
  have hpos := gaussLeg_pos (gaussB hw) hB 0
  have hpi := Real.pi_pos
  have h2pi : 0 < 1 / (2 * Real.pi) := by positivity
  have hE : Real.exp (-2 * gaussB hw) < 1 := by rw [Real.exp_lt_one_iff]; linarith
  have hw1 : (1 : ℝ) - Real.exp (-2 * gaussB hw) ≠ 0 := by linarith
  have e0 := gaussLeg_zero (gaussB hw) hB.ne'
  have e1 := gaussLeg_one (gaussB hw) hB.ne'
  have hs1 : 1 / (2 * Real.pi) * ((1 + Real.exp (-2 * gaussB hw)) / (1 - Real.exp (-2 * gaussB hw)) - 1 / gaussB hw) =
      1 / (2 * Real.pi) / gaussLeg (gaussB hw) 0 * gaussLeg (gaussB hw) 1 := by
    obtain ⟨w, hw⟩ : ∃ w, w = Real.exp (-2 * gaussB hw) := ⟨_, rfl⟩
    rw [e0, e1]
    rw [← hw] at hw1 ⊢
    have := hB.ne'
    field_simp
  have := gLoop_exact (gaussB hw) (1 / (2 * Real.pi) / gaussLeg (gaussB hw) 0) cutoff hB (by positivity) LMAX hL
    (set1 (set1 (fun _ => 0) 0 (1 / (2 * Real.pi))) 1
      (set1 (fun _ => 0) 0 (1 / (2 * Real.pi)) 0 *
        ((1 + Real.exp (-2 * gaussB hw)) / (1 - Real.exp (-2 * gaussB hw)) - 1 / gaussB hw)))
    (by simp only [set1, if_true]; rw [if_neg (by norm_num)]; field_simp)
    (by simp only [set1, if_true]; exact hs1)
  obtain ⟨a0, a1, a2⟩ := this
  refine ⟨gLoop (gaussB hw) cutoff LMAX 2 true _, ?_, a0.trans (by field_simp), a1.trans (by field_simp), ?_⟩
  · unfold gaussWeights
    rw [if_neg (not_lt.2 hc), if_neg (by omega)]
    rfl
  · intro l h2 hl
    rw [a2 l h2 hl]
    congr 1
    field_simp

/-- C36: the weights fall strictly with the degree until they reach the cutoff -/
theorem gaussWeights_decrease (hw cutoff : ℝ) (LMAX : ℕ) (hL : 1 ≤ LMAX) (hc : cutoff ≤ hw)
    (hb : Real.cos (hw / 6371) < 1) :
    ∃ wl, gaussWeights hw LMAX cutoff = some wl ∧
      ∀ k l, 2 ≤ k → k < l → l ≤ LMAX → wl l ≤ wl k ∧ (cutoff < wl k → wl l < wl k) := by
  obtain ⟨wl, h, -, -, h2⟩ := gaussWeights_exact hw cutoff LMAX hL hc hb
  refine ⟨wl, h, fun k l hk hkl hl => ?_⟩
  have hB : 0 < gaussB hw := div_pos (Real.log_pos (by norm_num)) (by linarith)
  have hpos := gaussLeg_pos (gaussB hw) hB 0
  have hpi := Real.pi_pos
  have hlt : 1 / (2 * Real.pi) * (gaussLeg (gaussB hw) l / gaussLeg (gaussB hw) 0) <
      1 / (2 * Real.pi) * (gaussLeg (gaussB hw) k / gaussLeg (gaussB hw) 0) :=
    mul_lt_mul_of_pos_left (div_lt_div_of_pos_right (gaussLeg_anti _ hB hkl) hpos) (by positivity)
  rw [h2 k hk (by omega), h2 l (by omega) hl]
  refine ⟨max_le_max hlt.le le_rfl, fun hck => ?_⟩
  rcases lt_max_iff.1 hck with h' | h'
  · rw [max_eq_left h'.le]
    exact max_lt hlt h'
  · exact absurd h' (lt_irrefl _)

/-- C36: the radius is the half width: at the angle `hw/6371` the Gaussian is half its peak -/
theorem gauss_half_width (hw : ℝ) (hb : Real.cos (hw / 6371) < 1) :
    Real.exp (-gaussB hw * (1 - Real.cos (hw / 6371))) = 1 / 2 ∧ Real.exp (-gaussB hw * (1 - Real.cos 0)) = 1 := by
  have : (1 : ℝ) - Real.cos (hw / 6371) ≠ 0 := by linarith
  constructor
  · unfold gaussB
    rw [neg_mul, div_mul_cancel₀ _ this, Real.exp_neg, Real.exp_log (by norm_num)]
    norm_num
  · simp

/-- the hypotheses are met by the usual 300 km radius -/
example : ∃ wl, gaussWeights 300 60 1e-10 = some wl ∧ wl 0 = 1 / (2 * Real.pi) := by
  obtain ⟨wl, h, h0, -⟩ := gaussWeights_exact 300 1e-10 60 (by norm_num) (by norm_num) (by
    refine lt_of_le_of_ne (Real.cos_le_one _) ?_
    rw [Ne, Real.cos_eq_one_iff_of_lt_of_lt]
    · norm_num
    · have := Real.pi_gt_three; linarith
    · have := Real.pi_gt_three; linarith)
  exact ⟨wl, h, h0⟩

end Verif.Synthesis
