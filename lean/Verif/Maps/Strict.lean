import Verif.Maps.Props
import Verif.Synthesis.Gauss

/-!
# C89: smoothing, regional grids and orders that cannot be used
-/
namespace Verif.Maps
open Verif.Harmonics Verif.Synthesis Verif.Legendre

/-- **C89** without a smoothing radius nothing is smoothed; with any radius above the cutoff (and below the circumference of the
Earth) the field of degree 0 is kept and that of degree 1 is reduced -/
theorem weights_spec (cutoff RAD : ℝ) (LMAX : ℕ) :
    (RAD = 0 → ∃ wt, weights cutoff RAD LMAX = some wt ∧ ∀ l, wt l = 1) ∧
    (1 ≤ LMAX → cutoff ≤ RAD → RAD ≠ 0 → Real.cos (RAD / 6371) < 1 →
      ∃ wt, weights cutoff RAD LMAX = some wt ∧ wt 0 = 1 ∧ 0 < wt 1 ∧ wt 1 < 1) := by
  refine ⟨?_, ?_⟩
  · intro h
    exact ⟨fun _ => 1, by unfold weights; rw [if_neg (by simpa using h)], fun _ => rfl⟩
  · intro hL hc h0 hb
    obtain ⟨wl, hwl, w0, w1, -⟩ := gaussWeights_spec RAD cutoff LMAX hL hc
    have hB : 0 < gaussB RAD := div_pos (Real.log_pos (by norm_num)) (by linarith)
    obtain ⟨l1, l2⟩ := langevin_bounds (gaussB RAD) hB
    have hpi := Real.pi_pos
    refine ⟨fun l => 2 * Real.pi * wl l, ?_, ?_, ?_⟩
    · unfold weights
      rw [if_pos h0, hwl]
      rfl
    · simp only [w0]; field_simp
    · have e : 2 * Real.pi * wl 1 =
          (1 + Real.exp (-2 * gaussB RAD)) / (1 - Real.exp (-2 * gaussB RAD)) - 1 / gaussB RAD := by
        rw [w1, w0]
        generalize (1 + Real.exp (-2 * gaussB RAD)) / (1 - Real.exp (-2 * gaussB RAD)) - 1 / gaussB RAD = x
        field_simp
      simp only [e]
      exact ⟨l1, l2⟩

/-- **C89** the regional grid: for steps dividing the extent (`p` columns, `q` rows) the centres of all its cells, from west to
east and from north to south -/
theorem bounds_spec (west dlon dlat minlon minlat : ℚ) (p q : ℕ) (h1 : 0 < dlon) (h2 : 0 < dlat) :
    axes west dlon dlat (.bounds minlon (minlon + p * dlon) minlat (minlat + q * dlat)) =
      ((List.range p).map (fun i : ℕ => minlon + (i + 1 / 2) * dlon),
        (List.range q).map fun i : ℕ => minlat + q * dlat - (i + 1 / 2) * dlat) := by
  simp only [axes]
  rw [arange_spec _ _ dlon h1.ne' p (by ring), arange_spec _ _ (-dlat) (by simpa using h2.ne') q (by ring)]
  congr 1 <;> (apply List.map_congr_left; intro i _; ring)

/-- **C89** a map cannot be made with orders above the largest degree or above the orders of the field -/
theorem synthesis_order_fails (eps scalef : ℝ) (LMIN LMAX MMAX : ℕ) (h : Harm ℝ) (lons lats : List ℚ)
    (hM : h.mmax < MMAX ∨ LMAX < MMAX) : ∃ e, synthesis eps scalef LMIN LMAX MMAX h lons lats = .error e := by
  unfold synthesis
  by_cases h2 : LMAX < 2
  · exact ⟨_, by rw [if_pos h2]⟩
  · exact ⟨_, by rw [if_neg h2, if_pos hM]⟩

/-- one degree boxes between 0 and 3 degrees east and 10 and 12 degrees north -/
example : axes (-180) 1 1 (.bounds 0 3 10 12) = ([1 / 2, 3 / 2, 5 / 2], [23 / 2, 21 / 2]) := by decide +kernel

end Verif.Maps
