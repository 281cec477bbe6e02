import Verif.Synthesis.Clenshaw
import Verif.Legendre.Props

/-!
# Properties C35, C61, C62: spherical harmonic summation, the FFT version, geostrophic currents
-/
namespace Verif.Synthesis
open Verif.Legendre

/-- Specification: truncated spherical harmonic sum over `LMIN <= l <= LMAX`, `m <= min(l, MMAX)` with
the functions `p` -/
noncomputable def sphSum (LMIN LMAX MMAX : ℕ) (p clm slm : ℕ → ℕ → ℝ) (phi : ℝ) : ℝ :=
  ∑ l ∈ Finset.Icc LMIN LMAX, ∑ m ∈ Finset.range (MMAX + 1),
    p l m * (clm l m * Real.cos (m * phi) + slm l m * Real.sin (m * phi))

theorem dSum_window (LMIN LMAX : ℕ) (p c : ℕ → ℕ → ℝ) (m : ℕ) :
    dSum LMAX p (windowed LMIN LMAX c) m = ∑ l ∈ Finset.Icc LMIN LMAX, p l m * c l m := by
  unfold dSum
  rw [sum_map_range, ← Finset.sum_subset (s₁ := Finset.Icc LMIN LMAX)]
  · apply Finset.sum_congr rfl
    intro l hl
    have := Finset.mem_Icc.1 hl
    rw [windowed, if_pos this]
  · intro l hl
    have := Finset.mem_Icc.1 hl
    exact Finset.mem_range.2 (by omega)
  · intro l _ hl
    have : ¬ (LMIN ≤ l ∧ l ≤ LMAX) := fun h => hl (Finset.mem_Icc.2 h)
    rw [windowed, if_neg this, mul_zero]

/-- C35: the summation is the truncated double sum, whatever Legendre functions are given -/
theorem harmSumCore_eq (LMIN LMAX MMAX : ℕ) (clm slm p : ℕ → ℕ → ℝ) (phi : ℝ) :
    harmSumCore LMIN LMAX MMAX clm slm p phi = sphSum LMIN LMAX MMAX p clm slm phi := by
  unfold harmSumCore sphSum
  rw [sum_map_range, sum_map_range, Finset.sum_comm, ← Finset.sum_add_distrib]
  apply Finset.sum_congr rfl
  intro m _
  rw [dSum_window, dSum_window, Finset.mul_sum, Finset.mul_sum, ← Finset.sum_add_distrib]
  apply Finset.sum_congr rfl
  intro l _
  ring

/-- the functions the code takes for a latitude strictly between the poles -/
theorem usePLM_interior (eps scalef : ℝ) (hs : scalef ≠ 0) (LMAX : ℕ) (hL : 2 ≤ LMAX) (lat : ℝ)
    (h1 : -90 < lat) (h2 : lat < 90) :
    ∃ p, usePLM eps scalef LMAX lat none = some p ∧ ∀ l ≤ LMAX, ∀ m,
      p l m = Plm l m (Real.cos ((90 - lat) * Real.pi / 180)) (Real.sin ((90 - lat) * Real.pi / 180)) := by
  have hpi := Real.pi_pos
  have h0 : 0 < (90 - lat) * Real.pi / 180 := by
    have : 0 < 90 - lat := by linarith
    positivity
  have h3 : (90 - lat) * Real.pi / 180 < Real.pi := by
    rw [div_lt_iff₀ (by norm_num)]; nlinarith
  have hsin := Real.sin_pos_of_pos_of_lt_pi h0 h3
  have hsc := Real.sin_sq_add_cos_sq ((90 - lat) * Real.pi / 180)
  obtain ⟨s, hs, hv⟩ := holmes_correct eps scalef hs LMAX hL (Real.cos ((90 - lat) * Real.pi / 180))
    (by nlinarith)
  refine ⟨s.p, ?_, ?_⟩
  · unfold usePLM; rw [hs]; rfl
  · intro l hl m
    rw [hv l hl m]
    congr 1
    rw [show 1 - Real.cos ((90 - lat) * Real.pi / 180) ^ 2 = Real.sin ((90 - lat) * Real.pi / 180) ^ 2 by linarith,
      Real.sqrt_sq hsin.le]

/-- C35: `harmonic_summation` returns the truncated spherical harmonic sum with the true associated
Legendre functions at every latitude strictly between the poles -/
theorem harmonicSummation_correct (eps scalef : ℝ) (hs : scalef ≠ 0) (rows LMIN LMAX : ℕ) (hL : 2 ≤ LMAX)
    (MMAX : Option ℕ) (clm slm : ℕ → ℕ → ℝ) (lon lat : ℝ) (h1 : -90 < lat) (h2 : lat < 90) :
    harmonicSummation eps scalef rows LMIN LMAX MMAX none clm slm lon lat =
      some (sphSum LMIN LMAX (MMAX.getD LMAX)
        (fun l m => Plm l m (Real.cos ((90 - lat) * Real.pi / 180)) (Real.sin ((90 - lat) * Real.pi / 180)))
        clm slm (lon * Real.pi / 180)) := by
  obtain ⟨p, hp, hv⟩ := usePLM_interior eps scalef hs LMAX hL lat h1 h2
  unfold harmonicSummation
  simp only
  rw [show effLmax rows LMAX = LMAX by unfold effLmax; rw [if_neg (by omega)], hp, Option.map_some,
    harmSumCore_eq]
  congr 1
  unfold sphSum
  apply Finset.sum_congr rfl; intro l hl
  apply Finset.sum_congr rfl; intro m _
  rw [hv l (Finset.mem_Icc.1 hl).2 m]

/-- non-vacuity of C35 -/
example (clm slm : ℕ → ℕ → ℝ) :
    ∃ v, harmonicSummation (1 / 2 ^ 52) (1 / 10 ^ 280) 61 1 60 none none clm slm 10 45 = some v :=
  ⟨_, harmonicSummation_correct _ _ (by positivity) 61 1 60 (by norm_num) none clm slm 10 45 (by norm_num)
    (by norm_num)⟩

/-- C35: with `LMAX = 0` the size of the coefficient array is used -/
theorem harmonicSummation_default (eps scalef : ℝ) (rows LMIN : ℕ) (MMAX : Option ℕ)
    (PLM : Option (ℕ → ℕ → ℝ)) (clm slm : ℕ → ℕ → ℝ) (lon lat : ℝ) :
    harmonicSummation eps scalef (rows + 2) LMIN 0 MMAX PLM clm slm lon lat =
      harmonicSummation eps scalef (rows + 2) LMIN (rows + 1) MMAX PLM clm slm lon lat := by
  unfold harmonicSummation effLmax; simp

/-- C35: linearity in the coefficients -/
theorem harmSumCore_linear (LMIN LMAX MMAX : ℕ) (a b : ℝ) (c1 s1 c2 s2 p : ℕ → ℕ → ℝ) (phi : ℝ) :
    harmSumCore LMIN LMAX MMAX (fun l m => a * c1 l m + b * c2 l m) (fun l m => a * s1 l m + b * s2 l m) p phi =
      a * harmSumCore LMIN LMAX MMAX c1 s1 p phi + b * harmSumCore LMIN LMAX MMAX c2 s2 p phi := by
  simp only [harmSumCore_eq, sphSum, Finset.mul_sum, ← Finset.sum_add_distrib]
  apply Finset.sum_congr rfl; intro l _
  apply Finset.sum_congr rfl; intro m _
  ring

/-- C35: coefficients outside the window have no influence -/
theorem harmSumCore_window (LMIN LMAX MMAX : ℕ) (c s c' s' p : ℕ → ℕ → ℝ) (phi : ℝ)
    (h : ∀ l m, LMIN ≤ l → l ≤ LMAX → m ≤ MMAX → c l m = c' l m ∧ (m ≠ 0 → s l m = s' l m)) :
    harmSumCore LMIN LMAX MMAX c s p phi = harmSumCore LMIN LMAX MMAX c' s' p phi := by
  simp only [harmSumCore_eq, sphSum]
  apply Finset.sum_congr rfl; intro l hl
  apply Finset.sum_congr rfl; intro m hm
  have hl := Finset.mem_Icc.1 hl
  have hm := Finset.mem_range.1 hm
  obtain ⟨h1, h2⟩ := h l m hl.1 hl.2 (by omega)
  rw [h1]
  by_cases h0 : m = 0
  · subst h0; simp
  · rw [h2 h0]

theorem cos_shift (m : ℕ) (phi : ℝ) (k : ℤ) : Real.cos (m * (phi + k * (2 * Real.pi))) = Real.cos (m * phi) := by
  have : (m : ℝ) * (phi + k * (2 * Real.pi)) = m * phi + ((m * k : ℤ) : ℝ) * (2 * Real.pi) := by
    push_cast; ring
  rw [this, Real.cos_add_int_mul_two_pi]

theorem sin_shift (m : ℕ) (phi : ℝ) (k : ℤ) : Real.sin (m * (phi + k * (2 * Real.pi))) = Real.sin (m * phi) := by
  have : (m : ℝ) * (phi + k * (2 * Real.pi)) = m * phi + ((m * k : ℤ) : ℝ) * (2 * Real.pi) := by
    push_cast; ring
  rw [this, Real.sin_add_int_mul_two_pi]

/-- C35: shifting the longitude by any multiple of 360 degrees changes nothing -/
theorem harmonicSummation_periodic (eps scalef : ℝ) (rows LMIN LMAX : ℕ) (MMAX : Option ℕ)
    (PLM : Option (ℕ → ℕ → ℝ)) (clm slm : ℕ → ℕ → ℝ) (lon lat : ℝ) (k : ℤ) :
    harmonicSummation eps scalef rows LMIN LMAX MMAX PLM clm slm (lon + 360 * k) lat =
      harmonicSummation eps scalef rows LMIN LMAX MMAX PLM clm slm lon lat := by
  unfold harmonicSummation
  simp only [harmSumCore_eq, sphSum]
  have : (lon + 360 * k) * Real.pi / 180 = lon * Real.pi / 180 + k * (2 * Real.pi) := by ring
  simp only [this, cos_shift, sin_shift]

/-- C35: `stokes_summation` is the same sum after scaling degree `l` by weight and unit factor -/
theorem stokesSummation_correct (eps scalef : ℝ) (hs : scalef ≠ 0) (rows LMIN LMAX : ℕ) (hL : 2 ≤ LMAX)
    (MMAX : Option ℕ) (wl df : ℕ → ℝ) (clm slm : ℕ → ℕ → ℝ) (lon lat : ℝ) (h1 : -90 < lat) (h2 : lat < 90) :
    stokesSummation eps scalef rows LMIN LMAX MMAX none wl df clm slm lon lat =
      some (sphSum LMIN LMAX (MMAX.getD LMAX)
        (fun l m => wl l * df l *
          Plm l m (Real.cos ((90 - lat) * Real.pi / 180)) (Real.sin ((90 - lat) * Real.pi / 180)))
        clm slm (lon * Real.pi / 180)) := by
  unfold stokesSummation
  simp only
  rw [show effLmax rows LMAX = LMAX by unfold effLmax; rw [if_neg (by omega)],
    harmonicSummation_correct eps scalef hs (LMAX + 1) LMIN LMAX hL _ _ _ lon lat h1 h2]
  congr 1
  unfold sphSum
  apply Finset.sum_congr rfl; intro l _
  apply Finset.sum_congr rfl; intro m _
  ring

/-- C34/C35: strictly between the poles Clenshaw summation and direct summation agree -/
theorem clenshaw_eq_stokesSummation (eps scalef scale : ℝ) (hs : scalef ≠ 0) (hsc : scale ≠ 0)
    (rows LMAX : ℕ) (hL : 2 ≤ LMAX) (wl df : ℕ → ℝ) (clm slm : ℕ → ℕ → ℝ) (lon lat : ℝ)
    (h1 : -90 < lat) (h2 : lat < 90) :
    stokesSummation eps scalef rows 0 LMAX none none wl df clm slm lon lat =
      some (clenshaw scale (fun l => df l * wl l) clm slm LMAX lon lat) := by
  rw [stokesSummation_correct eps scalef hs rows 0 LMAX hL none wl df clm slm lon lat h1 h2,
    clenshaw_correct scale hsc _ clm slm LMAX (by omega)]
  congr 1
  unfold sphSum synth
  rw [show Finset.Icc 0 LMAX = Finset.range (LMAX + 1) by ext; simp]
  apply Finset.sum_congr rfl; intro l hl
  have hl := Finset.mem_range.1 hl
  simp only [Option.getD_none]
  rw [← Finset.sum_subset (s₁ := Finset.range (l + 1))]
  · apply Finset.sum_congr rfl; intro m _; ring
  · intro m hm
    have := Finset.mem_range.1 hm
    exact Finset.mem_range.2 (by omega)
  · intro m _ hm
    have : l < m := by
      by_contra hc
      exact hm (Finset.mem_range.2 (by omega))
    rw [Plm_zero_of_lt l m this]; ring

/-! ## C61: FFT -/

theorem ifft_re (x : ℕ → ℂ) (len n j : ℕ) (hn : len ≤ n) (h0 : 0 < n) :
    (n : ℝ) * (ifft x len n j).re =
      ∑ m ∈ Finset.range len, ((x m).re * Real.cos (m * (2 * Real.pi * j / n)) -
        (x m).im * Real.sin (m * (2 * Real.pi * j / n))) := by
  unfold ifft
  rw [sum_map_range]
  have e : ((1 / n : ℂ)) = ((1 / n : ℝ) : ℂ) := by push_cast; rfl
  rw [e, Complex.re_ofReal_mul, ← mul_assoc, mul_one_div_cancel (by positivity), one_mul, Complex.re_sum]
  rw [← Finset.sum_subset (s₁ := Finset.range len)]
  · apply Finset.sum_congr rfl
    intro m hm
    rw [if_pos (Finset.mem_range.1 hm)]
    have e2 : 2 * (Real.pi : ℂ) * Complex.I * ((m * j / n : ℝ) : ℂ) =
        ((m * (2 * Real.pi * j / n) : ℝ) : ℂ) * Complex.I := by push_cast; ring
    rw [e2, Complex.exp_mul_I, Complex.mul_re, ← Complex.ofReal_cos, ← Complex.ofReal_sin,
      show ∀ a b : ℝ, ((a : ℂ) + (b : ℂ) * Complex.I).re = a from fun a b => by simp,
      show ∀ a b : ℝ, ((a : ℂ) + (b : ℂ) * Complex.I).im = b from fun a b => by simp]
  · intro m hm
    have := Finset.mem_range.1 hm
    exact Finset.mem_range.2 (by omega)
  · intro m _ hm
    have : ¬ m < len := fun h => hm (Finset.mem_range.2 h)
    rw [if_neg this]; simp

/-- C61: on `phimax` longitudes equally spaced from 0 to 360 with `MMAX + 1 <= phimax - 1`, the FFT
version returns the direct summation at every longitude (the last equal to the first) -/
theorem harmTransform_correct (LMIN LMAX MMAX phimax : ℕ) (h : MMAX + 2 ≤ phimax)
    (clm slm p : ℕ → ℕ → ℝ) (j : ℕ) (hj : j < phimax) :
    harmTransform LMIN LMAX MMAX phimax clm slm p j =
      harmSumCore LMIN LMAX MMAX clm slm p ((360 * j / ((phimax - 1 : ℕ) : ℝ)) * Real.pi / 180) := by
  have hn : (0 : ℝ) < ((phimax - 1 : ℕ) : ℝ) := by
    have : 0 < phimax - 1 := by omega
    exact_mod_cast this
  rw [harmSumCore_eq]
  have key : ∀ i : ℕ, 2 * ((phimax - 1 : ℕ) : ℝ) * (ifft (fun m => ((List.range (LMAX + 1)).map fun l : ℕ =>
        (p l m : ℂ) * (if LMIN ≤ l ∧ l ≤ LMAX then (clm l m : ℂ) - slm l m * Complex.I else 0)).sum / 2)
        (MMAX + 1) (phimax - 1) i).re =
      sphSum LMIN LMAX MMAX p clm slm ((360 * i / ((phimax - 1 : ℕ) : ℝ)) * Real.pi / 180) := by
    intro i
    rw [mul_assoc, ifft_re _ _ _ _ (by omega) (by omega), Finset.mul_sum]
    unfold sphSum
    rw [Finset.sum_comm]
    apply Finset.sum_congr rfl
    intro m _
    have hsum : ((List.range (LMAX + 1)).map fun l : ℕ =>
        (p l m : ℂ) * (if LMIN ≤ l ∧ l ≤ LMAX then (clm l m : ℂ) - slm l m * Complex.I else 0)).sum / 2 =
        ((∑ l ∈ Finset.Icc LMIN LMAX, p l m * clm l m : ℝ) - (∑ l ∈ Finset.Icc LMIN LMAX, p l m * slm l m : ℝ) * Complex.I) / 2 := by
      rw [sum_map_range, ← Finset.sum_subset (s₁ := Finset.Icc LMIN LMAX)]
      · push_cast
        rw [Finset.sum_mul, ← Finset.sum_sub_distrib]
        congr 1
        apply Finset.sum_congr rfl
        intro l hl
        rw [if_pos (Finset.mem_Icc.1 hl)]; ring
      · intro l hl
        have := Finset.mem_Icc.1 hl
        exact Finset.mem_range.2 (by omega)
      · intro l _ hl
        have : ¬ (LMIN ≤ l ∧ l ≤ LMAX) := fun h => hl (Finset.mem_Icc.2 h)
        rw [if_neg this, mul_zero]
    have ha : (2 * Real.pi * i / ((phimax - 1 : ℕ) : ℝ)) = 360 * i / ((phimax - 1 : ℕ) : ℝ) * Real.pi / 180 := by
      ring
    rw [hsum, ha]
    have hre : ∀ A B : ℝ, (((A : ℂ) - (B : ℂ) * Complex.I) / 2).re = A / 2 ∧ (((A : ℂ) - (B : ℂ) * Complex.I) / 2).im = -B / 2 := by
      intro A B
      have : ((A : ℂ) - (B : ℂ) * Complex.I) / 2 = ((A / 2 : ℝ) : ℂ) + ((-B / 2 : ℝ) : ℂ) * Complex.I := by
        push_cast; ring
      rw [this]
      constructor <;> simp
    rw [(hre _ _).1, (hre _ _).2]
    set C := Real.cos (m * (360 * i / ((phimax - 1 : ℕ) : ℝ) * Real.pi / 180))
    set S := Real.sin (m * (360 * i / ((phimax - 1 : ℕ) : ℝ) * Real.pi / 180))
    have : ∀ A B : ℝ, 2 * (A / 2 * C - -B / 2 * S) = A * C + B * S := by intro A B; ring
    rw [this, Finset.sum_mul, Finset.sum_mul, ← Finset.sum_add_distrib]
    apply Finset.sum_congr rfl
    intro l _
    ring
  unfold harmTransform
  simp only
  by_cases c : j = phimax - 1
  · rw [if_pos c, key 0, c]
    have e1 : (360 * ((phimax - 1 : ℕ) : ℝ) / ((phimax - 1 : ℕ) : ℝ)) * Real.pi / 180 =
        0 + ((1 : ℤ) : ℝ) * (2 * Real.pi) := by
      field_simp; push_cast; ring
    have e0 : (360 * ((0 : ℕ) : ℝ) / ((phimax - 1 : ℕ) : ℝ)) * Real.pi / 180 = 0 := by simp
    rw [e1, e0]
    unfold sphSum
    simp only [cos_shift, sin_shift]
  · rw [if_neg c, key j]

/-- non-vacuity of C61: half-degree grid, degree 60 -/
example (clm slm p : ℕ → ℕ → ℝ) : harmTransform 0 60 60 721 clm slm p 5 =
    harmSumCore 0 60 60 clm slm p ((360 * (5 : ℕ) / ((721 - 1 : ℕ) : ℝ)) * Real.pi / 180) :=
  harmTransform_correct 0 60 60 721 (by norm_num) clm slm p 5 (by norm_num)

/-- C61: with too few longitudes the FFT version drops orders: with `phimax = 2` only order 0 is left,
so a pure order-1 field gives zero where the direct sum does not -/
theorem harmTransform_aliased (p : ℝ) :
    let P : ℕ → ℕ → ℝ := fun l m => if l = 1 ∧ m = 1 then p else 0
    let C : ℕ → ℕ → ℝ := fun l m => if l = 1 ∧ m = 1 then 1 else 0
    harmTransform 0 1 1 2 C (fun _ _ => 0) P 0 = 0 ∧
      harmSumCore 0 1 1 C (fun _ _ => 0) P 0 = p := by
  constructor
  · unfold harmTransform ifft
    simp [List.range_succ]
  · unfold harmSumCore dSum windowed
    simp [List.range_succ]

/-! ## C62: geostrophic currents -/

/-- C62: the lower bound of degrees has no influence on the geostrophic currents -/
theorem currents_ignore_LMIN (LMIN LMIN' LMAX MMAX : ℕ) (coeff : ℝ) (wl kl : ℕ → ℝ)
    (clm slm p : ℕ → ℕ → ℝ) (th phi : ℝ) :
    currents LMIN LMAX MMAX coeff wl kl clm slm p th phi =
      currents LMIN' LMAX MMAX coeff wl kl clm slm p th phi := by
  unfold currents
  have : ∀ L c, selfAssign L LMAX c = c := by
    intro L c; funext l m; unfold selfAssign; split <;> rfl
  simp only [this]

/-- C62: so excluding degree 1 leaves its meridional contribution in the result -/
theorem currents_LMIN_not_excluded :
    ∃ (LMAX MMAX : ℕ) (coeff : ℝ) (wl kl : ℕ → ℝ) (clm slm p : ℕ → ℕ → ℝ) (th phi : ℝ),
      (∀ l m, 2 ≤ l → clm l m = 0 ∧ slm l m = 0) ∧
      (currents 2 LMAX MMAX coeff wl kl clm slm p th phi).2 ≠ 0 := by
  refine ⟨1, 1, 1, fun _ => 1, fun _ => 0, fun _ _ => 0, fun l m => if l = 1 ∧ m = 1 then 1 else 0,
    fun l m => if l = 1 ∧ m = 1 then 1 else 0, Real.pi / 4, 0, ?_, ?_⟩
  · intro l m hl
    exact ⟨rfl, if_neg (by omega)⟩
  · have h1 : Real.sqrt 2 ≠ 0 := by positivity
    unfold currents dSum selfAssign meridFlow
    simp [List.range_succ]
    norm_num

/-- C62: the currents are linear in the coefficients -/
theorem currents_linear (LMIN LMAX MMAX : ℕ) (coeff a b : ℝ) (wl kl : ℕ → ℝ)
    (c1 s1 c2 s2 p : ℕ → ℕ → ℝ) (th phi : ℝ) :
    let A := currents LMIN LMAX MMAX coeff wl kl c1 s1 p th phi
    let B := currents LMIN LMAX MMAX coeff wl kl c2 s2 p th phi
    currents LMIN LMAX MMAX coeff wl kl (fun l m => a * c1 l m + b * c2 l m)
      (fun l m => a * s1 l m + b * s2 l m) p th phi = (a * A.1 + b * B.1, a * A.2 + b * B.2) := by
  have hself : ∀ L c, selfAssign L LMAX c = c := by
    intro L c; funext l m; unfold selfAssign; split <;> rfl
  have hz : ∀ c c' : ℕ → ℕ → ℝ, zonalFlow LMAX MMAX coeff wl kl (fun l m => a * c l m + b * c' l m) =
      fun l m => a * zonalFlow LMAX MMAX coeff wl kl c l m + b * zonalFlow LMAX MMAX coeff wl kl c' l m := by
    intro c c'; funext l m; unfold zonalFlow; split <;> ring
  have hm : ∀ (sg : ℝ) (c c' : ℕ → ℕ → ℝ), meridFlow LMAX MMAX coeff sg wl kl (fun l m => a * c l m + b * c' l m) =
      fun l m => a * meridFlow LMAX MMAX coeff sg wl kl c l m + b * meridFlow LMAX MMAX coeff sg wl kl c' l m := by
    intro sg c c'; funext l m; unfold meridFlow; split <;> ring
  have hd : ∀ (c c' : ℕ → ℕ → ℝ) (m : ℕ), dSum LMAX p (fun l m => a * c l m + b * c' l m) m =
      a * dSum LMAX p c m + b * dSum LMAX p c' m := by
    intro c c' m
    simp only [dSum, sum_map_range, Finset.mul_sum, ← Finset.sum_add_distrib]
    apply Finset.sum_congr rfl; intro l _; ring
  have hf : ∀ (x : ℝ) (F G H K : ℕ → ℝ),
      ((List.range (MMAX + 1)).map fun m : ℕ => Real.cos (m * phi) * (x * (a * F m + b * G m))).sum +
        ((List.range (MMAX + 1)).map fun m : ℕ => Real.sin (m * phi) * (x * (a * H m + b * K m))).sum =
      a * (((List.range (MMAX + 1)).map fun m : ℕ => Real.cos (m * phi) * (x * F m)).sum +
        ((List.range (MMAX + 1)).map fun m : ℕ => Real.sin (m * phi) * (x * H m)).sum) +
      b * (((List.range (MMAX + 1)).map fun m : ℕ => Real.cos (m * phi) * (x * G m)).sum +
        ((List.range (MMAX + 1)).map fun m : ℕ => Real.sin (m * phi) * (x * K m)).sum) := by
    intro x F G H K
    simp only [sum_map_range, mul_add, Finset.mul_sum, ← Finset.sum_add_distrib]
    apply Finset.sum_congr rfl; intro m _; ring
  intro A B
  simp only [A, B]
  unfold currents
  simp only [hself, hz, hm, hd, hf]

end Verif.Synthesis
