import Verif.MasconFit.Props
import Mathlib.LinearAlgebra.Matrix.Rank

/-!
# C75: the hypotheses can be met
-/
namespace Verif.MasconFit
open Verif.Units Verif.Analysis Finset

theorem normal_solvable {n k : ℕ} (A : Matrix (Fin n) (Fin k) ℝ) (b : Fin n → ℝ) :
    ∃ x, (A.transpose * A).mulVec x = A.transpose.mulVec b := by
  have hle : LinearMap.range (A.transpose * A).mulVecLin ≤ LinearMap.range A.transpose.mulVecLin := by
    rintro y ⟨x, rfl⟩
    exact ⟨A.mulVec x, by simp⟩
  have heq := Submodule.eq_of_le_of_finrank_eq hle (by
    have h1 := Matrix.rank_transpose_mul_self A
    have h2 := Matrix.rank_transpose A
    unfold Matrix.rank at h1 h2
    rw [h1, h2])
  have hb : A.transpose.mulVec b ∈ LinearMap.range A.transpose.mulVecLin := ⟨b, rfl⟩
  rw [← heq] at hb
  exact hb

/-- least squares drivers exist: every system has a solution of the normal equations -/
theorem sound_solver : ∃ f, (Solver.lsq f).Sound :=
  ⟨fun _ _ A b => (normal_solvable A b).choose, fun _ _ A b => (normal_solvable A b).choose_spec⟩

/-- harmonics with coefficients C00, C10, C11, S11 -/
noncomputable def four (c00 c10 c11 s11 : ℝ) : CSlm :=
  ⟨fun l m => if l = 0 ∧ m = 0 then c00 else if l = 1 ∧ m = 0 then c10 else if l = 1 ∧ m = 1 then c11 else 0,
   fun l m => if l = 1 ∧ m = 1 then s11 else 0⟩

/-- two mascons, degree one only, no smoothing, water taken from an ocean -/
noncomputable def demo : Args where
  E := Earth.default
  kl := fun _ => 0
  LMIN := 1
  LMAX := 1
  MMAX := none
  RAD := 0
  ocean := some (four 1 0 0 0)
  n_mas := 2
  mascons := ![four 1 1 0 1, four 1 0 1 1]

/-- the two mascons -/
def m0 : Fin demo.n_mas := (0 : Fin 2)
/-- the two mascons -/
def m1 : Fin demo.n_mas := (1 : Fin 2)

theorem demo_weights : DegreeOne.smoothing demo.RAD demo.LMAX = some fun _ => 1 := by
  unfold DegreeOne.smoothing demo; simp

theorem demo_layers : (∀ k, layer demo.ocean (demo.mascons k) (true, 1, 1) = 1) ∧
    layer demo.ocean (demo.mascons m0) (false, 1, 0) = 1 ∧ layer demo.ocean (demo.mascons m1) (false, 1, 0) = 0 ∧
    layer demo.ocean (demo.mascons m0) (false, 1, 1) = 0 ∧ layer demo.ocean (demo.mascons m1) (false, 1, 1) = 1 := by
  refine ⟨?_, ?_, ?_, ?_, ?_⟩
  · intro k
    change Fin 2 at k
    fin_cases k <;> simp [layer, demo, four]
  all_goals simp [layer, demo, four, m0, m1]

theorem demo_independent : Independent demo fun _ => 1 := by
  intro x hx
  obtain ⟨h1, h2, h3, h4, h5⟩ := demo_layers
  have e1 := hx (false, 1, 0) ⟨by decide, by decide, by decide, by decide, by simp⟩ (by norm_num [massWeight, demo])
  have e2 := hx (false, 1, 1) ⟨by decide, by decide, by decide, by decide, by simp⟩ (by norm_num [massWeight, demo])
  have e1' : x m0 * layer demo.ocean (demo.mascons m0) (false, 1, 0) + x m1 * layer demo.ocean (demo.mascons m1) (false, 1, 0) = 0 := by
    rw [← e1]; exact (Fin.sum_univ_two (M := ℝ) fun k : Fin 2 => x k * layer demo.ocean (demo.mascons k) (false, 1, 0)).symm
  have e2' : x m0 * layer demo.ocean (demo.mascons m0) (false, 1, 1) + x m1 * layer demo.ocean (demo.mascons m1) (false, 1, 1) = 0 := by
    rw [← e2]; exact (Fin.sum_univ_two (M := ℝ) fun k : Fin 2 => x k * layer demo.ocean (demo.mascons k) (false, 1, 1)).symm
  rw [h2, h3] at e1'
  rw [h4, h5] at e2'
  funext k
  change Fin 2 at k
  fin_cases k
  · simp only [mul_one, mul_zero, add_zero] at e1'
    exact e1'
  · simp only [mul_one, mul_zero, zero_add] at e2'
    exact e2'

theorem demo_mass (k : Fin demo.n_mas) : gtPerCm demo.E (demo.mascons k) ≠ 0 := by
  have h1 := (rad_pos default_ok).ne'; have h2 := (rho_pos default_ok).ne'; have h3 := Real.pi_pos.ne'
  have : (demo.mascons k).clm 0 0 = 1 := by
    change Fin 2 at k
    fin_cases k <;> simp [demo, four]
  unfold gtPerCm
  rw [this]
  have : rad_e demo.E ≠ 0 := h1
  have : rho_e demo.E ≠ 0 := h2
  positivity

/-- all hypotheses together: the masses of any layers are recovered, the leakage run is zero, method 2 fails -/
example (f) (hf : (Solver.lsq f).Sound) (x : Fin demo.n_mas → ℝ) (Y : CSlm) (hY : IsSum demo Y x) (d : CSlm) :
    ∃ r, calcMascon demo 1 (.lsq f) (fun _ => Y) (fun _ => zeroField) (fun _ => zeroField) (fun _ => zeroField) d = some r ∧
      (∀ k t, r.mass k t = x k * gtPerCm demo.E (demo.mascons k)) ∧
      ∃ r', calcMascon demo 1 (.lsq f) (fun _ => Y) (fun _ => zeroField) (fun _ => zeroField)
        (fun t => lin 1 1 zeroField (reconstructAll demo fun k => r.mass k t)) d = some r' ∧ ∀ k t, r'.mass k t = 0 := by
  have hs : (calcMascon demo 1 (.lsq f) (fun _ => Y) (fun _ => zeroField) (fun _ => zeroField) (fun _ => zeroField) d).isSome := by
    rw [calcMascon_succeeds demo (by decide) (by decide)]
    exact ⟨by decide, Or.inl rfl, by rw [demo_weights]; rfl⟩
  obtain ⟨r, hr⟩ := Option.isSome_iff_exists.1 hs
  refine ⟨r, hr, ?_, ?_⟩
  · intro k t
    exact masses_recovered demo _ hf _ _ _ _ d r hr _ demo_weights demo_independent t x (by rw [zero_corrected]; exact hY) k
  · exact leakage_zero demo _ hf _ _ _ _ d r hr (fun wt hw => by
      rw [demo_weights, Option.some.injEq] at hw; subst hw; exact demo_independent) demo_mass

example (f) (hf : (Solver.lsq f).Sound) (Y : CSlm) (hY : ∀ p, coef Y p = layer demo.ocean (demo.mascons m0) p) (d : CSlm)
    (r : Series demo.n_mas)
    (hr : calcMascon demo 2 (.lsq f) (fun _ => Y) (fun _ => zeroField) (fun _ => zeroField) (fun _ => zeroField) d = some r) :
    ∃ k, r.mass k 0 ≠ (if k = m0 then 1 else 0) * gtPerCm demo.E (demo.mascons k) := by
  refine fit2_wrong demo _ hf d (fun _ => 1) demo_weights (by decide) (by decide) demo_mass m0 ?_ ?_ Y hY r hr
  · change (1 : ℝ) * layer demo.ocean (demo.mascons m0) (true, 1, 1) ≠ 0
    rw [demo_layers.1]; norm_num
  · change coefSum 1 1 1 _ ≠ coefSum 1 1 1 _ * ((1 : ℝ) * layer demo.ocean (demo.mascons m0) (true, 1, 1))
    obtain ⟨h1, h2, _, h4, _⟩ := demo_layers
    simp [coefSum, sum_range_succ, h1, h2, h4]

/-- a field with all limits: one mascon's coefficient of degree 1, none of degree 2 -/
example (mass : Fin demo.n_mas → ℝ) : (reconstructAll demo mass).slm 2 1 = 0 ∧
    (reconstructAll demo mass).slm 1 1 = ∑ k, mass k / gtPerCm demo.E (demo.mascons k) *
      layer demo.ocean (demo.mascons k) (true, 1, 1) := by
  have h1 := reconstruct_field demo mass demo_mass (true, 2, 1) (by decide)
  have h2 := reconstruct_field demo mass demo_mass (true, 1, 1) (by decide)
  rw [if_pos rfl] at h1 h2
  rw [if_neg (by simp [demo])] at h1
  rw [if_pos (by decide)] at h2
  exact ⟨h1, h2⟩

end Verif.MasconFit
