import Verif.SeaLevel.ClenshawModel
import Verif.Synthesis.Clenshaw

/-!
# Property C118: the Clenshaw summation inside the sea level equation
-/
namespace Verif.SeaLevel
open Verif.Legendre Verif.Synthesis

theorem degLoop_eq (t : ℝ) (m lmax : ℕ) (h1 : 1 ≤ m) (c : ℕ → ℕ → ℝ) :
    ((degreesDown lmax m).foldl (degStep t m c)
      ⟨Real.sqrt (((2 * (lmax : ℝ) - 1) * (2 * lmax + 1)) / (((lmax : ℝ) - m) * (lmax + m))) * t * c lmax m +
        c (lmax - 1) m, c lmax m⟩).pre1 = clLoop t m lmax fun l => c l m := by
  have key : ∀ (ls : List ℕ) (s : Pre) (p : ℝ × ℝ), s.pre1 = p.1 → s.pre2 = p.2 →
      (ls.foldl (degStep t m c) s).pre1 = (ls.foldl (clStep t m fun l => c l m) p).1 := by
    intro ls
    induction ls with
    | nil => intro s p h1 _; exact h1
    | cons l ls ih =>
      intro s p e1 e2
      rw [List.foldl_cons, List.foldl_cons]
      apply ih
      · simp only [degStep, clStep, clA, clB, if_neg (show ¬ m = 0 by omega), e1, e2]
      · simp only [degStep, clStep, e1]
  unfold clLoop degreesDown
  rw [key _ _ (clATop t m lmax * c lmax m + c (lmax - 1) m, c lmax m)]
  · rw [List.foldl_map]
  · simp only [clATop, if_neg (show ¬ (m = 0 ∧ m + 1 < lmax) by omega)]
  · rfl

theorem degLoop0_eq (t : ℝ) (lmax : ℕ) (h : 2 ≤ lmax) (c : ℕ → ℕ → ℝ) :
    ((degreesDown lmax 0).foldl (degStep0 t c)
      ⟨Real.sqrt (((2 * (lmax : ℝ) - 1) * (2 * lmax + 1)) / ((lmax : ℝ) * lmax)) * t * c lmax 0 +
        c (lmax - 1) 0, c lmax 0⟩).pre1 = clLoop t 0 lmax fun l => c l 0 := by
  have key : ∀ (ls : List ℕ) (s : Pre) (p : ℝ × ℝ), s.pre1 = p.1 → s.pre2 = p.2 →
      (ls.foldl (degStep0 t c) s).pre1 = (ls.foldl (clStep t 0 fun l => c l 0) p).1 := by
    intro ls
    induction ls with
    | nil => intro s p h1 _; exact h1
    | cons l ls ih =>
      intro s p e1 e2
      rw [List.foldl_cons, List.foldl_cons]
      apply ih
      · simp only [degStep0, clStep, clA, clB, if_true, e1, e2]
      · simp only [degStep0, clStep, e1]
  unfold clLoop degreesDown
  rw [key _ _ (clATop t 0 lmax * c lmax 0 + c (lmax - 1) 0, c lmax 0)]
  · rw [List.foldl_map]
  · unfold clATop
    rw [if_pos (show (0 = 0 ∧ 0 + 1 < lmax) by omega)]
  · rfl

/-- the two copies of the order sums agree when the degree factor is one -/
theorem sleSm_eq (SCALE t : ℝ) (m : ℕ) (clm slm : ℕ → ℕ → ℝ) (lmax : ℕ) (hm : m ≤ lmax) :
    sleSm SCALE t m clm slm lmax = clenshawSm SCALE t (fun _ => 1) m clm slm lmax := by
  unfold sleSm clenshawSm
  dsimp only
  by_cases h1 : m = lmax
  · simp only [if_pos h1, one_mul]
  simp only [if_neg h1]
  by_cases h2 : m + 1 = lmax
  · simp only [if_pos h2, clATop, if_neg (show ¬ (m = 0 ∧ m + 1 < lmax) by omega), one_mul, mul_one]
  simp only [if_neg h2]
  by_cases h3 : m = 0
  · subst h3
    rw [if_neg (show ¬ (0 + 2 ≤ lmax ∧ 1 ≤ 0) by omega), if_pos rfl, if_pos rfl]
    rw [degLoop0_eq t lmax (by omega) fun l m => SCALE * clm l m]
    simp only [one_mul]
  · rw [if_pos (show m + 2 ≤ lmax ∧ 1 ≤ m by omega), if_neg h3]
    rw [degLoop_eq t m lmax (by omega) fun l m => SCALE * clm l m,
      degLoop_eq t m lmax (by omega) fun l m => SCALE * slm l m]
    simp only [one_mul]

/-- C118: the conditioned sums of every order: multiplied by the sectoral Legendre function they give
the sum over degrees of the coefficients times the Legendre functions, whatever the scale -/
theorem sleSm_correct (SCALE t u : ℝ) (hs : SCALE ≠ 0) (m : ℕ) (clm slm : ℕ → ℕ → ℝ) (lmax : ℕ) (hm : m ≤ lmax) :
    (sleSm SCALE t m clm slm lmax).1 * Plm m m t u =
        ∑ l ∈ Finset.Ico m (lmax + 1), clm l m * Plm l m t u ∧
      (m ≠ 0 → (sleSm SCALE t m clm slm lmax).2 * Plm m m t u =
        ∑ l ∈ Finset.Ico m (lmax + 1), slm l m * Plm l m t u) := by
  rw [sleSm_eq SCALE t m clm slm lmax hm]
  have h := clenshawSm_correct SCALE t u hs (fun _ => 1) m clm slm lmax hm
  simp only [one_mul] at h
  exact h

/-- C118: the loop written in the solver is the Clenshaw summation with degree factor one -/
theorem slePoint_eq (SCALE : ℝ) (clm slm : ℕ → ℕ → ℝ) (LMAX : ℕ) (lon lat : ℝ) :
    slePoint SCALE clm slm LMAX (lon * Real.pi / 180) ((90 - lat) * Real.pi / 180) =
      clenshaw SCALE (fun _ => 1) clm slm LMAX lon lat := by
  unfold slePoint clenshaw
  dsimp only
  have hsm : ∀ m, m ≤ LMAX → sleSm SCALE (Real.cos ((90 - lat) * Real.pi / 180)) m clm slm LMAX =
      clenshawSm SCALE (Real.cos ((90 - lat) * Real.pi / 180)) (fun _ => 1) m clm slm LMAX :=
    fun m hm => sleSm_eq _ _ m clm slm LMAX hm
  have key : ∀ (ms : List ℕ), (∀ m ∈ ms, m ≤ LMAX) → ∀ (s : Run) (p : CS),
      s.cos = p.c → s.sin = p.s → s.sum = p.sm →
      (ms.foldl (orderStep (Real.sin ((90 - lat) * Real.pi / 180)) (lon * Real.pi / 180)
        fun m => sleSm SCALE (Real.cos ((90 - lat) * Real.pi / 180)) m clm slm LMAX) s).sum =
      (ms.foldl (csStep (Real.sin ((90 - lat) * Real.pi / 180)) (lon * Real.pi / 180)
        fun m => clenshawSm SCALE (Real.cos ((90 - lat) * Real.pi / 180)) (fun _ => 1) m clm slm LMAX) p).sm := by
    intro ms
    induction ms with
    | nil => intro _ s p _ _ h3; exact h3
    | cons m ms ih =>
      intro hb s p h1 h2 h3
      rw [List.foldl_cons, List.foldl_cons]
      apply ih (fun k hk => hb k (by simp [hk]))
      · simp only [orderStep, csStep, h1]
      · simp only [orderStep, csStep, h2]
      · simp only [orderStep, csStep, h1, h2, h3, hsm m (hb m (by simp))]
  rw [hsm 0 (Nat.zero_le _)]
  congr 2
  rw [key _ _ _ ⟨_, _, _⟩ rfl rfl rfl]
  · rw [List.foldl_map, hsm LMAX le_rfl]
  · intro m hm
    simp only [List.mem_map, List.mem_range] at hm
    obtain ⟨i, _, rfl⟩ := hm
    omega

/-- C118: at every point, for every maximum degree from 1, the solver's summation is the spherical
harmonic sum of its coefficients; the scale does not enter -/
theorem slePoint_correct (SCALE : ℝ) (hs : SCALE ≠ 0) (clm slm : ℕ → ℕ → ℝ) (LMAX : ℕ) (hL : 1 ≤ LMAX)
    (lon lat : ℝ) :
    slePoint SCALE clm slm LMAX (lon * Real.pi / 180) ((90 - lat) * Real.pi / 180) =
      synth LMAX (fun _ => 1) clm slm (Real.cos ((90 - lat) * Real.pi / 180))
        (Real.sin ((90 - lat) * Real.pi / 180)) (lon * Real.pi / 180) := by
  rw [slePoint_eq, clenshaw_correct SCALE hs _ clm slm LMAX hL]

/-- C118: the field of a pass before the mass correction is the one the theorems on the sea level
equation are about -/
theorem sleField_eq (c : Conf) (load height : Analysis.CSlm) (i j : ℕ) :
    sleField c load height i j = rawField c load height i j := by
  unfold sleField rawField
  rw [slePoint_eq]

/-- non-vacuity: the code's own scale factor, maximum degree 60 -/
example (clm slm : ℕ → ℕ → ℝ) : (sleSm (1 / 10 ^ 280) (1 / 2) 3 clm slm 60).1 * Plm 3 3 (1 / 2) (Real.sqrt 3 / 2) =
    ∑ l ∈ Finset.Ico 3 61, clm l 3 * Plm l 3 (1 / 2) (Real.sqrt 3 / 2) :=
  (sleSm_correct _ _ _ (by positivity) 3 clm slm 60 (by norm_num)).1

end Verif.SeaLevel
