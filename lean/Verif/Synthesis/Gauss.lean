import Verif.Synthesis.Model
import Mathlib.Analysis.SpecialFunctions.Trigonometric.DerivHyp
import Mathlib.Analysis.Calculus.Deriv.MeanValue
import Mathlib.Tactic.NormNum
import Mathlib.Tactic.Linarith
import Mathlib.Tactic.FieldSimp
import Mathlib.Analysis.Complex.ExponentialBounds

/-!
# Property C36: Gaussian smoothing weights
-/
namespace Verif.Synthesis
open Verif.Legendre

/-- `b` of the recursion -/
noncomputable def gaussB (hw : ℝ) : ℝ := Real.log 2 / (1 - Real.cos (hw / 6371))

/-- when the loop flag is down, nothing changes any more -/
theorem gLoop_false (b cutoff : ℝ) (LMAX l : ℕ) (wl : ℕ → ℝ) : gLoop b cutoff LMAX l false wl = wl := by
  rw [gLoop]; simp

/-- the loop from degree `l` on: entries below `l` stay; there is a degree `N` from which all entries
are the cutoff, before which the recursion holds with values not below the cutoff -/
theorem gLoop_spec (b cutoff : ℝ) (LMAX : ℕ) : ∀ (n l : ℕ) (wl : ℕ → ℝ), LMAX + 1 - l = n → 2 ≤ l →
    l ≤ LMAX + 1 →
    ∃ N, l ≤ N ∧ N ≤ LMAX + 1 ∧
      (∀ k < l, gLoop b cutoff LMAX l true wl k = wl k) ∧
      (∀ k, l ≤ k → k < N → gLoop b cutoff LMAX l true wl k =
          (1 - 2 * k) / b * gLoop b cutoff LMAX l true wl (k - 1) + gLoop b cutoff LMAX l true wl (k - 2) ∧
        cutoff ≤ gLoop b cutoff LMAX l true wl k) ∧
      (∀ k, N ≤ k → k ≤ LMAX → gLoop b cutoff LMAX l true wl k = cutoff) ∧
      (N ≤ LMAX → (1 - 2 * N) / b * gLoop b cutoff LMAX l true wl (N - 1) +
        gLoop b cutoff LMAX l true wl (N - 2) < cutoff) := by
  intro n
  induction n with
  | zero =>
    intro l wl hn h2 hl
    have he : gLoop b cutoff LMAX l true wl = wl := by
      rw [gLoop, if_neg (by omega)]
    refine ⟨l, le_rfl, hl, ?_, ?_, ?_, ?_⟩
    · intro k _; rw [he]
    · intro k h1 h3; omega
    · intro k h1 h3; omega
    · intro h; omega
  | succ n ih =>
    intro l wl hn h2 hl
    obtain ⟨v, hv⟩ : ∃ v, v = (1 - 2 * (l : ℝ)) / b * wl (l - 1) + wl (l - 2) := ⟨_, rfl⟩
    have hset : set1 wl l v l = v := by simp [set1]
    by_cases c : v < cutoff
    · have he : gLoop b cutoff LMAX l true wl =
          fun k => if l ≤ k ∧ k ≤ LMAX then cutoff else set1 wl l v k := by
        rw [gLoop, if_pos ⟨rfl, by omega⟩]
        simp only [← hv, hset]
        rw [if_pos c, gLoop_false]
      have hlow : ∀ k < l, gLoop b cutoff LMAX l true wl k = wl k := by
        intro k hk
        rw [he]; simp only; rw [if_neg (by omega), set1, if_neg (by omega)]
      refine ⟨l, le_rfl, hl, hlow, ?_, ?_, ?_⟩
      · intro k h1 h3; omega
      · intro k h1 h3
        rw [he]; simp only; rw [if_pos ⟨h1, h3⟩]
      · intro _
        rw [hlow _ (by omega), hlow _ (by omega), ← hv]; exact c
    · have he : gLoop b cutoff LMAX l true wl = gLoop b cutoff LMAX (l + 1) true (set1 wl l v) := by
        rw [gLoop, if_pos ⟨rfl, by omega⟩]
        simp only [← hv, hset]
        rw [if_neg c]
      obtain ⟨N, hN1, hN2, h3, h4, h5, h6⟩ := ih (l + 1) (set1 wl l v) (by omega) (by omega) (by omega)
      rw [he]
      have hlow : ∀ k < l, gLoop b cutoff LMAX (l + 1) true (set1 wl l v) k = wl k := by
        intro k hk
        rw [h3 k (by omega), set1, if_neg (by omega)]
      refine ⟨N, by omega, hN2, hlow, ?_, h5, h6⟩
      intro k hk1 hk2
      by_cases d : k = l
      · subst d
        rw [h3 k (by omega), hset, hlow _ (by omega), hlow _ (by omega)]
        exact ⟨hv, not_lt.1 c⟩
      · exact h4 k (by omega) hk2

/-- C36: shape of the weights. The first is `1/(2 pi)`, the second the closed form; there is a degree
`N` such that below it the Jekeli recursion holds and no weight is below the cutoff, from it on every
weight is the cutoff, and `N` is the first degree where the recursion falls below the cutoff -/
theorem gaussWeights_spec (hw cutoff : ℝ) (LMAX : ℕ) (hL : 1 ≤ LMAX) (hc : cutoff ≤ hw) :
    ∃ wl, gaussWeights hw LMAX cutoff = some wl ∧
      wl 0 = 1 / (2 * Real.pi) ∧
      wl 1 = wl 0 * ((1 + Real.exp (-2 * gaussB hw)) / (1 - Real.exp (-2 * gaussB hw)) - 1 / gaussB hw) ∧
      ∃ N, 2 ≤ N ∧ N ≤ LMAX + 1 ∧
        (∀ k, 2 ≤ k → k < N →
          wl k = (1 - 2 * k) / gaussB hw * wl (k - 1) + wl (k - 2) ∧ cutoff ≤ wl k) ∧
        (∀ k, N ≤ k → k ≤ LMAX → wl k = cutoff) ∧
        (N ≤ LMAX → (1 - 2 * N) / gaussB hw * wl (N - 1) + wl (N - 2) < cutoff) := by
  unfold gaussWeights
  rw [if_neg (not_lt.2 hc), if_neg (by omega)]
  simp only
  obtain ⟨N, h1, h2, h3, h4, h5, h6⟩ := gLoop_spec (gaussB hw) cutoff LMAX _ 2
    (set1 (set1 (fun _ => 0) 0 (1 / (2 * Real.pi))) 1
      (set1 (fun _ => 0) 0 (1 / (2 * Real.pi)) 0 *
        ((1 + Real.exp (-2 * gaussB hw)) / (1 - Real.exp (-2 * gaussB hw)) - 1 / gaussB hw))) rfl le_rfl (by omega)
  refine ⟨_, rfl, ?_, ?_, N, h1, h2, h4, h5, h6⟩
  · exact (h3 0 (by norm_num)).trans (by simp [set1])
  · have e0 := (h3 0 (by norm_num)).trans (show _ = 1 / (2 * Real.pi) by simp [set1])
    have e1 := h3 1 (by norm_num)
    unfold gaussB at *
    rw [e0, e1]
    simp [set1]

/-- C36: with a radius below the cutoff every weight is `1/(2 pi)` -/
theorem gaussWeights_small (hw cutoff : ℝ) (LMAX : ℕ) (hc : hw < cutoff) :
    ∃ wl, gaussWeights hw LMAX cutoff = some wl ∧ ∀ l ≤ LMAX, wl l = 1 / (2 * Real.pi) := by
  refine ⟨_, by unfold gaussWeights; rw [if_pos hc], fun l hl => if_pos hl⟩

/-- C36: `LMAX = 0` with a positive radius raises `IndexError` -/
theorem gaussWeights_LMAX_zero (hw cutoff : ℝ) (hc : cutoff ≤ hw) : gaussWeights hw 0 cutoff = none := by
  unfold gaussWeights; rw [if_neg (not_lt.2 hc), if_pos rfl]

theorem sinh_lt_mul_cosh (b : ℝ) (hb : 0 < b) : Real.sinh b < b * Real.cosh b := by
  have hd : ∀ x : ℝ, HasDerivAt (fun x => x * Real.cosh x - Real.sinh x) (x * Real.sinh x) x := by
    intro x
    have := ((hasDerivAt_id x).mul (Real.hasDerivAt_cosh x)).sub (Real.hasDerivAt_sinh x)
    refine this.congr_deriv ?_
    simp
  have hm : StrictMonoOn (fun x => x * Real.cosh x - Real.sinh x) (Set.Ici 0) := by
    apply strictMonoOn_of_deriv_pos (convex_Ici 0)
    · exact fun x _ => (hd x).continuousAt.continuousWithinAt
    · intro x hx
      rw [interior_Ici, Set.mem_Ioi] at hx
      rw [(hd x).deriv]
      exact mul_pos hx (Real.sinh_pos_iff.2 hx)
  have := hm (Set.mem_Ici.2 le_rfl) (Set.mem_Ici.2 hb.le) hb
  simp at this
  linarith

/-- the degree-1 factor lies strictly between 0 and 1 -/
theorem langevin_bounds (b : ℝ) (hb : 0 < b) :
    0 < (1 + Real.exp (-2 * b)) / (1 - Real.exp (-2 * b)) - 1 / b ∧
      (1 + Real.exp (-2 * b)) / (1 - Real.exp (-2 * b)) - 1 / b < 1 := by
  have he : Real.exp (-2 * b) < 1 := by rw [Real.exp_lt_one_iff]; linarith
  have hep := Real.exp_pos (-2 * b)
  have hne : 0 < 1 - Real.exp (-2 * b) := by linarith
  constructor
  · rw [sub_pos, div_lt_div_iff₀ hb hne]
    have h := sinh_lt_mul_cosh b hb
    rw [Real.sinh_eq, Real.cosh_eq] at h
    have e : Real.exp (-2 * b) = Real.exp (-b) * Real.exp (-b) := by
      rw [← Real.exp_add]; congr 1; ring
    have e1 : Real.exp b * Real.exp (-b) = 1 := by rw [← Real.exp_add]; simp
    have h' := mul_lt_mul_of_pos_right h (Real.exp_pos (-b))
    rw [e]
    nlinarith
  · have h1 : 2 * b + 1 < Real.exp (2 * b) := Real.add_one_lt_exp (by linarith)
    have e1 : Real.exp (2 * b) * Real.exp (-2 * b) = 1 := by rw [← Real.exp_add]; simp
    have h2 : (2 * b + 1) * Real.exp (-2 * b) < 1 := by
      have := mul_lt_mul_of_pos_right h1 hep
      rwa [e1] at this
    have : (1 + Real.exp (-2 * b)) / (1 - Real.exp (-2 * b)) - 1 / b - 1 =
        ((2 * b + 1) * Real.exp (-2 * b) - 1) / (b * (1 - Real.exp (-2 * b))) := by
      obtain ⟨w, hw⟩ : ∃ w, w = 1 - Real.exp (-2 * b) := ⟨_, rfl⟩
      have hE : Real.exp (-2 * b) = 1 - w := by rw [hw]; ring
      have hw0 : w ≠ 0 := by rw [hw]; exact hne.ne'
      rw [hE, show 1 - (1 - w) = w by ring]
      field_simp
      ring
    have h3 : ((2 * b + 1) * Real.exp (-2 * b) - 1) / (b * (1 - Real.exp (-2 * b))) < 0 :=
      div_neg_of_neg_of_pos (by linarith) (by positivity)
    linarith

/-- C36: all weights are positive and none exceeds the weight of degree 0, for every radius that is
not a multiple of the circumference and every cutoff between 0 and `1/(2 pi)` -/
theorem gaussWeights_bounds (hw cutoff : ℝ) (LMAX : ℕ) (hL : 1 ≤ LMAX) (hc : cutoff ≤ hw)
    (hb : Real.cos (hw / 6371) < 1) (hc0 : 0 < cutoff) (hc1 : cutoff ≤ 1 / (2 * Real.pi)) :
    ∃ wl, gaussWeights hw LMAX cutoff = some wl ∧
      ∀ l ≤ LMAX, 0 < wl l ∧ wl l ≤ 1 / (2 * Real.pi) := by
  obtain ⟨wl, hwl, h0, h1, N, hN1, hN2, hr, ht, -⟩ := gaussWeights_spec hw cutoff LMAX hL hc
  refine ⟨wl, hwl, ?_⟩
  have hB : 0 < gaussB hw := div_pos (Real.log_pos (by norm_num)) (by linarith)
  have hpi : 0 < 1 / (2 * Real.pi) := by have := Real.pi_pos; positivity
  obtain ⟨l1, l2⟩ := langevin_bounds (gaussB hw) hB
  intro l
  induction l using Nat.strong_induction_on with
  | _ l ih =>
    intro hl
    rcases l with _ | _ | l
    · rw [h0]; exact ⟨hpi, le_rfl⟩
    · rw [h1, h0]
      exact ⟨mul_pos hpi l1, by nlinarith⟩
    · by_cases c : l + 2 < N
      · obtain ⟨e, hlow⟩ := hr (l + 2) (by omega) c
        refine ⟨lt_of_lt_of_le hc0 hlow, ?_⟩
        have i1 := ih (l + 1) (by omega) (by omega)
        have i0 := ih l (by omega) (by omega)
        rw [show l + 2 - 1 = l + 1 from rfl, show l + 2 - 2 = l from rfl] at e
        have : (1 - 2 * ((l + 2 : ℕ) : ℝ)) / gaussB hw * wl (l + 1) ≤ 0 := by
          apply mul_nonpos_of_nonpos_of_nonneg _ i1.1.le
          apply div_nonpos_of_nonpos_of_nonneg _ hB.le
          push_cast
          have := (l.cast_nonneg : (0:ℝ) ≤ l)
          linarith
        rw [e]; linarith [i0.2]
      · rw [ht (l + 2) (by omega) hl]
        exact ⟨hc0, hc1⟩

/-- non-vacuity: 300 km radius, the default cutoff, degree 60 -/
example : ∃ wl, gaussWeights 300 60 (1 / 10 ^ 10) = some wl ∧
    ∀ l ≤ 60, 0 < wl l ∧ wl l ≤ 1 / (2 * Real.pi) := by
  apply gaussWeights_bounds 300 (1 / 10 ^ 10) 60 (by norm_num) (by norm_num) _ (by positivity)
  · rw [div_le_div_iff₀ (by positivity) (by have := Real.pi_pos; positivity)]
    have := Real.pi_le_four
    linarith
  · have h1 : (300 / 6371 : ℝ) < Real.pi := by have := Real.one_le_pi_div_two; linarith
    have := Real.cos_lt_cos_of_nonneg_of_le_pi (x := 0) (y := 300 / 6371) le_rfl h1.le (by norm_num)
    rwa [Real.cos_zero] at this

end Verif.Synthesis
