import Verif.Kernel.Model
import Verif.Synthesis.GaussExact
import Mathlib.Tactic.FieldSimp
import Mathlib.Tactic.Linarith
import Mathlib.Tactic.Positivity

/-!
# Property C70: the averaging kernel of `gen_averaging_kernel`

Specification (Swenson and Wahr 2002): with the normalised exact kernel `g/area`, measurement error `e`
and signal variance `S` per coefficient, the best coefficient minimises
`S (w - g/area)^2 + e^2 w^2` (leakage plus measurement error).
-/
namespace Verif.Kernel
open Verif.Legendre Verif.Synthesis

/-- leakage plus measurement error of one coefficient -/
def cost (S target e w : ℝ) : ℝ := S * (w - target) ^ 2 + e ^ 2 * w ^ 2

/-- `w` is the only minimiser of the cost -/
def Best (S target e w : ℝ) : Prop := ∀ v, v ≠ w → cost S target e w < cost S target e v

/-- the damping factor of the code gives the only minimiser -/
theorem best_of_ratio (S t e : ℝ) (hS : 0 < S) : Best S t e (t / (1 + e ^ 2 / S)) := by
  intro v hv
  have hp : 0 < S + e ^ 2 := by positivity
  have e1 : t / (1 + e ^ 2 / S) = S * t / (S + e ^ 2) := by
    have := hS.ne'
    have := hp.ne'
    field_simp
  rw [e1] at hv ⊢
  have key : cost S t e v - cost S t e (S * t / (S + e ^ 2)) = (S + e ^ 2) * (v - S * t / (S + e ^ 2)) ^ 2 := by
    unfold cost
    have := hp.ne'
    field_simp
    ring
  have hne : v - S * t / (S + e ^ 2) ≠ 0 := sub_ne_zero.2 hv
  have : 0 < (S + e ^ 2) * (v - S * t / (S + e ^ 2)) ^ 2 := by positivity
  linarith

/-- C70: the correlation coefficients are the Legendre coefficients of the Gaussian
`exp(-b (1 - cos α))`; from degree 2 on a value below the cutoff is replaced by the cutoff -/
theorem corr_exact (b cutoff : ℝ) (hb : 0 < b) (LMAX : ℕ) (hL : 1 ≤ LMAX) :
    ∃ gl, corrCoefficients b cutoff LMAX = some gl ∧ gl 0 = gaussLeg b 0 ∧ gl 1 = gaussLeg b 1 ∧
      ∀ l, 2 ≤ l → l ≤ LMAX → gl l = max (gaussLeg b l) cutoff := by
  have := gLoop_exact b 1 cutoff hb one_pos LMAX hL
    (set1 (set1 (fun _ => 0) 0 ((1 - Real.exp (-2 * b)) / b)) 1
      ((1 + Real.exp (-2 * b)) / b - (1 - Real.exp (-2 * b)) / b ^ 2))
    (by simp only [set1, if_true]; rw [if_neg (by norm_num), gaussLeg_zero b hb.ne', one_mul])
    (by simp only [set1, if_true]; rw [gaussLeg_one b hb.ne', one_mul])
  obtain ⟨a0, a1, a2⟩ := this
  refine ⟨_, by unfold corrCoefficients; rw [if_neg (by omega)], a0.trans (one_mul _), a1.trans (one_mul _), ?_⟩
  intro l h1 h2
  refine (a2 l h1 h2).trans ?_
  rw [one_mul]

theorem corr_pos (b cutoff : ℝ) (hb : 0 < b) (LMAX : ℕ) (hL : 1 ≤ LMAX) :
    ∃ gl, corrCoefficients b cutoff LMAX = some gl ∧ ∀ l ≤ LMAX, 0 < gl l := by
  obtain ⟨gl, h, h0, h1, h2⟩ := corr_exact b cutoff hb LMAX hL
  refine ⟨gl, h, fun l hl => ?_⟩
  rcases l with _ | _ | l
  · rw [h0]; exact gaussLeg_pos b hb 0
  · rw [h1]; exact gaussLeg_pos b hb 1
  · rw [h2 _ (by omega) hl]; exact lt_max_of_lt_left (gaussLeg_pos b hb _)

/-- the normalised power of the exact kernel, weighted with the correlation coefficients -/
noncomputable def power (LMAX MMAX : ℕ) (gl : ℕ → ℝ) (gclm gslm : ℕ → ℕ → ℝ) : ℝ :=
  ∑ l ∈ Finset.range (LMAX + 1), gl l / 2 * ∑ m ∈ Finset.range (min MMAX l + 1),
    ((gclm l m / gclm 0 0) ^ 2 + (gslm l m / gclm 0 0) ^ 2)

theorem sigmaZero_eq (LMAX MMAX : ℕ) (gl : ℕ → ℝ) (gclm gslm : ℕ → ℕ → ℝ) (sigma : ℝ) :
    sigmaZero LMAX MMAX gl gclm gslm sigma = sigma / Real.sqrt (power LMAX MMAX gl gclm gslm) := by
  unfold sigmaZero power
  dsimp only
  congr 2
  rw [Finset.sum_div]
  refine Finset.sum_congr rfl fun l _ => ?_
  rw [mul_div_assoc, Finset.sum_div]
  congr 1
  refine Finset.sum_congr rfl fun m _ => ?_
  rw [add_div, div_pow, div_pow]

theorem power_pos (LMAX MMAX : ℕ) (gl : ℕ → ℝ) (gclm gslm : ℕ → ℕ → ℝ) (hg : ∀ l ≤ LMAX, 0 < gl l)
    (ha : gclm 0 0 ≠ 0) : 0 < power LMAX MMAX gl gclm gslm := by
  unfold power
  apply Finset.sum_pos'
  · intro l hl
    have := hg l (by simpa [Nat.lt_succ_iff] using hl)
    have : 0 ≤ ∑ m ∈ Finset.range (min MMAX l + 1), ((gclm l m / gclm 0 0) ^ 2 + (gslm l m / gclm 0 0) ^ 2) :=
      Finset.sum_nonneg fun m _ => by positivity
    positivity
  · refine ⟨0, by simp, ?_⟩
    have h0 := hg 0 (by omega)
    rw [Nat.min_zero, Finset.sum_range_one, div_self ha]
    positivity

/-- the signal variance of a coefficient of degree `l` -/
noncomputable def signal (df gl : ℕ → ℝ) (s0 : ℝ) (l : ℕ) : ℝ := gl l * s0 ^ 2 / (2 * df l ^ 2)

theorem damp_inside (LMAX MMAX : ℕ) (df gl : ℕ → ℝ) (s0 area : ℝ) (g e : ℕ → ℕ → ℝ) (l m : ℕ)
    (h : l ≤ LMAX ∧ m ≤ min MMAX l) :
    damp LMAX MMAX df gl s0 area g e l m = (g l m / area) / (1 + e l m ^ 2 / signal df gl s0 l) := by
  unfold damp signal
  rw [if_pos h]
  dsimp only
  rw [div_div_eq_mul_div, mul_one_div, div_right_comm]
  congr 2
  ring

/-- C70: what `gen_averaging_kernel` returns.  For every exact kernel with non-zero degree-0 term, every
error model, non-zero signal amplitude, radius that is not a multiple of the circumference, truncation
and cutoff: there is one amplitude `s0` for which the Gaussian correlation with coefficients `gl` gives
the normalised kernel the variance `sigma^2`, and each returned coefficient within the truncation is the
only minimiser of leakage plus measurement error; beyond the truncation the coefficients are 0.  -/
theorem kernel_best (E : Units.Earth) (gclm gslm eclm eslm : ℕ → ℕ → ℝ) (sigma hw : ℝ) (LMAX : ℕ)
    (MMAX : Option ℕ) (CUTOFF : ℝ) (UNITS : ℤ) (LOVE : Option ((ℕ → ℝ) × (ℕ → ℝ) × (ℕ → ℝ))) (df : ℕ → ℝ)
    (hL : 1 ≤ LMAX) (hb : Real.cos (hw / (Units.rad_e E / 1e5)) < 1) (ha : gclm 0 0 ≠ 0) (hs : sigma ≠ 0)
    (hdf : dfactor E UNITS LOVE = some df) (hd0 : ∀ l ≤ LMAX, df l ≠ 0) :
    ∃ C S gl s0, averagingKernel E gclm gslm eclm eslm sigma hw LMAX MMAX CUTOFF UNITS LOVE = some (C, S) ∧
      (∀ l, l < 2 → l ≤ LMAX → gl l = gaussLeg (widthB hw (Units.rad_e E)) l) ∧
      (∀ l, 2 ≤ l → l ≤ LMAX → gl l = max (gaussLeg (widthB hw (Units.rad_e E)) l) CUTOFF) ∧
      power LMAX (MMAX.getD LMAX) gl gclm gslm * s0 ^ 2 = sigma ^ 2 ∧
      (∀ l ≤ LMAX, ∀ m ≤ l, m ≤ MMAX.getD LMAX →
        0 < signal df gl s0 l ∧
        Best (signal df gl s0 l) (gclm l m / gclm 0 0) (eclm l m) (C l m) ∧
        Best (signal df gl s0 l) (gslm l m / gclm 0 0) (eslm l m) (S l m)) ∧
      (∀ l m, (LMAX < l ∨ l < m ∨ MMAX.getD LMAX < m) → C l m = 0 ∧ S l m = 0) := by
  have hB : 0 < widthB hw (Units.rad_e E) := div_pos (Real.log_pos (by norm_num)) (by linarith)
  obtain ⟨gl, hgl, h0, h1, h2⟩ := corr_exact (widthB hw (Units.rad_e E)) CUTOFF hB LMAX hL
  obtain ⟨gl', hgl', hpos⟩ := corr_pos (widthB hw (Units.rad_e E)) CUTOFF hB LMAX hL
  rw [hgl] at hgl'
  obtain rfl := Option.some.inj hgl'
  have hp := power_pos LMAX (MMAX.getD LMAX) gl gclm gslm hpos ha
  have hsq : 0 < Real.sqrt (power LMAX (MMAX.getD LMAX) gl gclm gslm) := Real.sqrt_pos.2 hp
  refine ⟨_, _, gl, sigmaZero LMAX (MMAX.getD LMAX) gl gclm gslm sigma,
    by unfold averagingKernel; rw [hdf, hgl]; rfl, ?_, h2, ?_, ?_, ?_⟩
  · intro l hl _
    interval_cases l
    · exact h0
    · exact h1
  · rw [sigmaZero_eq, div_pow, Real.sq_sqrt hp.le]
    field_simp
  · intro l hl m hm hm2
    have hsz : sigmaZero LMAX (MMAX.getD LMAX) gl gclm gslm sigma ≠ 0 := by
      rw [sigmaZero_eq]; exact div_ne_zero hs hsq.ne'
    have hS : 0 < signal df gl (sigmaZero LMAX (MMAX.getD LMAX) gl gclm gslm sigma) l := by
      have := hpos l hl
      have := hd0 l hl
      unfold signal
      positivity
    refine ⟨hS, ?_, ?_⟩
    · rw [damp_inside _ _ _ _ _ _ _ _ _ _ ⟨hl, by omega⟩]
      exact best_of_ratio _ _ _ hS
    · rw [damp_inside _ _ _ _ _ _ _ _ _ _ ⟨hl, by omega⟩]
      exact best_of_ratio _ _ _ hS
  · intro l m h
    unfold damp
    rw [if_neg (by omega), if_neg (by omega)]
    simp

/-- C70: the degree factor: water equivalent of a normalised coefficient for `UNITS=0`, 1 for `UNITS=1` -/
theorem dfactor_values (E : Units.Earth) (hl kl ll : ℕ → ℝ) (LOVE : Option ((ℕ → ℝ) × (ℕ → ℝ) × (ℕ → ℝ))) :
    dfactor E 0 (some (hl, kl, ll)) =
      some (fun l => Units.rho_e E * Units.rad_e E * (2 * l + 1) / (1 + kl l) / 3) ∧
    dfactor E 1 LOVE = some (fun _ => 1) := by
  constructor
  · unfold dfactor; rw [if_pos rfl]; rfl
  · unfold dfactor; rw [if_neg (by norm_num), if_pos rfl]

/-- C70: calls that raise: `LMAX = 0`, `UNITS = 0` without love numbers, an unknown unit code -/
theorem kernel_raises (E : Units.Earth) (gclm gslm eclm eslm : ℕ → ℕ → ℝ) (sigma hw : ℝ) (LMAX : ℕ)
    (MMAX : Option ℕ) (CUTOFF : ℝ) (UNITS : ℤ) (LOVE : Option ((ℕ → ℝ) × (ℕ → ℝ) × (ℕ → ℝ))) :
    averagingKernel E gclm gslm eclm eslm sigma hw LMAX MMAX CUTOFF UNITS LOVE = none ↔
      LMAX = 0 ∨ (UNITS = 0 ∧ LOVE = none) ∨ (UNITS ≠ 0 ∧ UNITS ≠ 1) := by
  unfold averagingKernel dfactor corrCoefficients
  by_cases hU : UNITS = 0
  · subst hU
    cases LOVE with
    | none => simp
    | some p =>
      obtain ⟨a, b, c⟩ := p
      by_cases hL : LMAX = 0 <;> simp [hL, Units.harmonic]
  · by_cases hU1 : UNITS = 1
    · subst hU1
      by_cases hL : LMAX = 0 <;> simp [hL]
    · simp [hU, hU1]

/-- the common situation of the next theorems: what the call returned -/
theorem kernel_entries {E : Units.Earth} {gclm gslm eclm eslm : ℕ → ℕ → ℝ} {sigma hw : ℝ} {LMAX : ℕ}
    {MMAX : Option ℕ} {CUTOFF : ℝ} {UNITS : ℤ} {LOVE : Option ((ℕ → ℝ) × (ℕ → ℝ) × (ℕ → ℝ))}
    {C S : ℕ → ℕ → ℝ}
    (h : averagingKernel E gclm gslm eclm eslm sigma hw LMAX MMAX CUTOFF UNITS LOVE = some (C, S)) :
    ∃ df gl, dfactor E UNITS LOVE = some df ∧
      corrCoefficients (widthB hw (Units.rad_e E)) CUTOFF LMAX = some gl ∧
      C = damp LMAX (MMAX.getD LMAX) df gl (sigmaZero LMAX (MMAX.getD LMAX) gl gclm gslm sigma) (gclm 0 0) gclm eclm ∧
      S = damp LMAX (MMAX.getD LMAX) df gl (sigmaZero LMAX (MMAX.getD LMAX) gl gclm gslm sigma) (gclm 0 0) gslm eslm := by
  unfold averagingKernel at h
  simp only [Option.bind_eq_bind, Option.bind_eq_some_iff, Option.some.injEq, Prod.mk.injEq] at h
  obtain ⟨df, h1, gl, h2, h3, h4⟩ := h
  exact ⟨df, gl, h1, h2, h3.symm, h4.symm⟩

/-- C70: a coefficient without measurement error is the exact one divided by the area -/
theorem kernel_no_error {E : Units.Earth} {gclm gslm eclm eslm : ℕ → ℕ → ℝ} {sigma hw : ℝ} {LMAX : ℕ}
    {MMAX : Option ℕ} {CUTOFF : ℝ} {UNITS : ℤ} {LOVE : Option ((ℕ → ℝ) × (ℕ → ℝ) × (ℕ → ℝ))}
    {C S : ℕ → ℕ → ℝ}
    (h : averagingKernel E gclm gslm eclm eslm sigma hw LMAX MMAX CUTOFF UNITS LOVE = some (C, S))
    (l m : ℕ) (hl : l ≤ LMAX) (hm : m ≤ l) (hm2 : m ≤ MMAX.getD LMAX) :
    (eclm l m = 0 → C l m = gclm l m / gclm 0 0) ∧ (eslm l m = 0 → S l m = gslm l m / gclm 0 0) := by
  obtain ⟨df, gl, -, -, rfl, rfl⟩ := kernel_entries h
  constructor <;> intro h0 <;> unfold damp <;> rw [if_pos ⟨hl, by omega⟩] <;> dsimp only <;> rw [h0] <;>
    simp [div_eq_mul_inv]

/-- the damping factor lies in `(0, 1]` -/
theorem damp_factor (LMAX MMAX : ℕ) (df gl : ℕ → ℝ) (s0 area : ℝ) (g e : ℕ → ℕ → ℝ) (l m : ℕ)
    (h : l ≤ LMAX ∧ m ≤ min MMAX l) (hg : 0 < gl l) :
    ∃ q, 0 < q ∧ q ≤ 1 ∧ damp LMAX MMAX df gl s0 area g e l m = q * (g l m / area) ∧
      q = 1 / (1 + 2 * (df l ^ 2 / (gl l * s0 ^ 2)) * e l m ^ 2) := by
  have hd : 0 ≤ 2 * (df l ^ 2 / (gl l * s0 ^ 2)) * e l m ^ 2 := by positivity
  refine ⟨1 / (1 + 2 * (df l ^ 2 / (gl l * s0 ^ 2)) * e l m ^ 2), by positivity, ?_, ?_, rfl⟩
  · rw [div_le_one (by positivity)]; linarith
  · unfold damp
    rw [if_pos h]
    dsimp only
    field_simp

/-- C70: damping never enlarges a coefficient, never changes its sign and never makes a non-zero one 0 -/
theorem kernel_damps {E : Units.Earth} {gclm gslm eclm eslm : ℕ → ℕ → ℝ} {sigma hw : ℝ} {LMAX : ℕ}
    {MMAX : Option ℕ} {CUTOFF : ℝ} {UNITS : ℤ} {LOVE : Option ((ℕ → ℝ) × (ℕ → ℝ) × (ℕ → ℝ))}
    {C S : ℕ → ℕ → ℝ}
    (h : averagingKernel E gclm gslm eclm eslm sigma hw LMAX MMAX CUTOFF UNITS LOVE = some (C, S))
    (hb : Real.cos (hw / (Units.rad_e E / 1e5)) < 1)
    (l m : ℕ) (hl : l ≤ LMAX) (hm : m ≤ l) (hm2 : m ≤ MMAX.getD LMAX) :
    (∃ q, 0 < q ∧ q ≤ 1 ∧ C l m = q * (gclm l m / gclm 0 0)) ∧
    (∃ q, 0 < q ∧ q ≤ 1 ∧ S l m = q * (gslm l m / gclm 0 0)) := by
  have hL : 1 ≤ LMAX := by
    by_contra hc
    have : LMAX = 0 := by omega
    have h' := (kernel_raises E gclm gslm eclm eslm sigma hw LMAX MMAX CUTOFF UNITS LOVE).2 (Or.inl this)
    rw [h] at h'; cases h'
  have hB : 0 < widthB hw (Units.rad_e E) := div_pos (Real.log_pos (by norm_num)) (by linarith)
  obtain ⟨df, gl, -, hgl, rfl, rfl⟩ := kernel_entries h
  obtain ⟨gl', hgl', hpos⟩ := corr_pos (widthB hw (Units.rad_e E)) CUTOFF hB LMAX hL
  rw [hgl] at hgl'
  obtain rfl := Option.some.inj hgl'
  constructor
  · obtain ⟨q, a, b, c, -⟩ := damp_factor LMAX (MMAX.getD LMAX) df gl
      (sigmaZero LMAX (MMAX.getD LMAX) gl gclm gslm sigma) (gclm 0 0) gclm eclm l m ⟨hl, by omega⟩ (hpos l hl)
    exact ⟨q, a, b, c⟩
  · obtain ⟨q, a, b, c, -⟩ := damp_factor LMAX (MMAX.getD LMAX) df gl
      (sigmaZero LMAX (MMAX.getD LMAX) gl gclm gslm sigma) (gclm 0 0) gslm eslm l m ⟨hl, by omega⟩ (hpos l hl)
    exact ⟨q, a, b, c⟩

/-- C70: a larger error or a smaller signal amplitude damps more: for two calls that differ in the errors
and in `sigma` only -/
theorem kernel_monotone {E : Units.Earth} {gclm gslm eclm eslm eclm' eslm' : ℕ → ℕ → ℝ} {sigma sigma' hw : ℝ}
    {LMAX : ℕ} {MMAX : Option ℕ} {CUTOFF : ℝ} {UNITS : ℤ} {LOVE : Option ((ℕ → ℝ) × (ℕ → ℝ) × (ℕ → ℝ))}
    {C S C' S' : ℕ → ℕ → ℝ}
    (h : averagingKernel E gclm gslm eclm eslm sigma hw LMAX MMAX CUTOFF UNITS LOVE = some (C, S))
    (h' : averagingKernel E gclm gslm eclm' eslm' sigma' hw LMAX MMAX CUTOFF UNITS LOVE = some (C', S'))
    (hb : Real.cos (hw / (Units.rad_e E / 1e5)) < 1) (ha : gclm 0 0 ≠ 0) (hs' : sigma' ≠ 0)
    (hss : |sigma'| ≤ |sigma|)
    (l m : ℕ) (hl : l ≤ LMAX) (hm : m ≤ l) (hm2 : m ≤ MMAX.getD LMAX) :
    (|eclm l m| ≤ |eclm' l m| → |C' l m| ≤ |C l m|) ∧ (|eslm l m| ≤ |eslm' l m| → |S' l m| ≤ |S l m|) := by
  have hL : 1 ≤ LMAX := by
    by_contra hc
    have : LMAX = 0 := by omega
    have h'' := (kernel_raises E gclm gslm eclm eslm sigma hw LMAX MMAX CUTOFF UNITS LOVE).2 (Or.inl this)
    rw [h] at h''; cases h''
  have hB : 0 < widthB hw (Units.rad_e E) := div_pos (Real.log_pos (by norm_num)) (by linarith)
  obtain ⟨df, gl, hdf, hgl, rfl, rfl⟩ := kernel_entries h
  obtain ⟨df', gl', hdf', hgl'', rfl, rfl⟩ := kernel_entries h'
  rw [hdf] at hdf'; obtain rfl := Option.some.inj hdf'
  rw [hgl] at hgl''; obtain rfl := Option.some.inj hgl''
  obtain ⟨gl', hgl', hpos⟩ := corr_pos (widthB hw (Units.rad_e E)) CUTOFF hB LMAX hL
  rw [hgl] at hgl'
  obtain rfl := Option.some.inj hgl'
  have hp := power_pos LMAX (MMAX.getD LMAX) gl gclm gslm hpos ha
  have hsq : 0 < Real.sqrt (power LMAX (MMAX.getD LMAX) gl gclm gslm) := Real.sqrt_pos.2 hp
  have hgp := hpos l hl
  have h0 : sigmaZero LMAX (MMAX.getD LMAX) gl gclm gslm sigma' ^ 2 ≤
      sigmaZero LMAX (MMAX.getD LMAX) gl gclm gslm sigma ^ 2 := by
    rw [sigmaZero_eq, sigmaZero_eq, div_pow, div_pow]
    exact div_le_div_of_nonneg_right (sq_le_sq.2 hss) (by positivity)
  have h0' : 0 < sigmaZero LMAX (MMAX.getD LMAX) gl gclm gslm sigma' ^ 2 := by
    have : sigmaZero LMAX (MMAX.getD LMAX) gl gclm gslm sigma' ≠ 0 := by
      rw [sigmaZero_eq]; exact div_ne_zero hs' hsq.ne'
    positivity
  have main : ∀ (g e e' : ℕ → ℕ → ℝ), |e l m| ≤ |e' l m| →
      |damp LMAX (MMAX.getD LMAX) df gl (sigmaZero LMAX (MMAX.getD LMAX) gl gclm gslm sigma') (gclm 0 0) g e' l m| ≤
      |damp LMAX (MMAX.getD LMAX) df gl (sigmaZero LMAX (MMAX.getD LMAX) gl gclm gslm sigma) (gclm 0 0) g e l m| := by
    intro g e e' hee
    obtain ⟨q, a, b, c, d⟩ := damp_factor LMAX (MMAX.getD LMAX) df gl
      (sigmaZero LMAX (MMAX.getD LMAX) gl gclm gslm sigma) (gclm 0 0) g e l m ⟨hl, by omega⟩ hgp
    obtain ⟨q', a', b', c', d'⟩ := damp_factor LMAX (MMAX.getD LMAX) df gl
      (sigmaZero LMAX (MMAX.getD LMAX) gl gclm gslm sigma') (gclm 0 0) g e' l m ⟨hl, by omega⟩ hgp
    rw [c, c', abs_mul, abs_mul, abs_of_pos a, abs_of_pos a']
    apply mul_le_mul_of_nonneg_right _ (abs_nonneg _)
    rw [d, d']
    have e1 : df l ^ 2 / (gl l * sigmaZero LMAX (MMAX.getD LMAX) gl gclm gslm sigma ^ 2) ≤
        df l ^ 2 / (gl l * sigmaZero LMAX (MMAX.getD LMAX) gl gclm gslm sigma' ^ 2) :=
      div_le_div_of_nonneg_left (by positivity) (by positivity) (mul_le_mul_of_nonneg_left h0 hgp.le)
    have e2 : e l m ^ 2 ≤ e' l m ^ 2 := sq_le_sq.2 hee
    have e3 : 0 ≤ df l ^ 2 / (gl l * sigmaZero LMAX (MMAX.getD LMAX) gl gclm gslm sigma ^ 2) := by positivity
    have e4 : 2 * (df l ^ 2 / (gl l * sigmaZero LMAX (MMAX.getD LMAX) gl gclm gslm sigma ^ 2)) * e l m ^ 2 ≤
        2 * (df l ^ 2 / (gl l * sigmaZero LMAX (MMAX.getD LMAX) gl gclm gslm sigma' ^ 2)) * e' l m ^ 2 :=
      mul_le_mul (by linarith) e2 (by positivity) (by positivity)
    exact one_div_le_one_div_of_le (by positivity) (by linarith)
  exact ⟨main gclm eclm eclm', main gslm eslm eslm'⟩

/-- C70: only the shape of the exact kernel matters: multiplying it by `c ≠ 0` changes nothing -/
theorem kernel_scale_invariant (E : Units.Earth) (gclm gslm eclm eslm : ℕ → ℕ → ℝ) (sigma hw c : ℝ) (hc : c ≠ 0)
    (LMAX : ℕ) (MMAX : Option ℕ) (CUTOFF : ℝ) (UNITS : ℤ) (LOVE : Option ((ℕ → ℝ) × (ℕ → ℝ) × (ℕ → ℝ))) :
    averagingKernel E (fun l m => c * gclm l m) (fun l m => c * gslm l m) eclm eslm sigma hw LMAX MMAX CUTOFF
      UNITS LOVE =
    averagingKernel E gclm gslm eclm eslm sigma hw LMAX MMAX CUTOFF UNITS LOVE := by
  have hs : ∀ gl, sigmaZero LMAX (MMAX.getD LMAX) gl (fun l m => c * gclm l m) (fun l m => c * gslm l m) sigma =
      sigmaZero LMAX (MMAX.getD LMAX) gl gclm gslm sigma := by
    intro gl
    rw [sigmaZero_eq, sigmaZero_eq]
    congr 2
    unfold power
    simp only [mul_div_mul_left _ _ hc]
  have hd : ∀ (g e : ℕ → ℕ → ℝ) df gl s0, damp LMAX (MMAX.getD LMAX) df gl s0 (c * gclm 0 0) (fun l m => c * g l m) e =
      damp LMAX (MMAX.getD LMAX) df gl s0 (gclm 0 0) g e := by
    intro g e df gl s0
    funext l m
    unfold damp
    dsimp only
    split
    · rw [mul_one_div, mul_one_div, div_right_comm, div_right_comm (g l m), mul_div_mul_left _ _ hc]
    · simp
  unfold averagingKernel
  simp only [hs, hd]

/-- a concrete call meets the hypotheses: the default Earth, a radius of one radian, mass coefficients -/
example : ∃ C S, averagingKernel Units.Earth.default (fun _ _ => 1) (fun _ _ => 0) (fun _ _ => 1)
      (fun _ _ => 1) 5 (Units.rad_e Units.Earth.default / 1e5) 2 none 1e-15 1 none = some (C, S) ∧ C 2 3 = 0 := by
  have hr : 0 < Units.rad_e Units.Earth.default := by
    unfold Units.rad_e Units.Earth.default
    apply mul_pos (by norm_num)
    apply Real.rpow_pos_of_pos
    norm_num
  obtain ⟨C, S, gl, s0, h, -, -, -, -, h0⟩ := kernel_best Units.Earth.default (fun _ _ => 1) (fun _ _ => 0)
    (fun _ _ => 1) (fun _ _ => 1) 5 (Units.rad_e Units.Earth.default / 1e5) 2 none 1e-15 1 none (fun _ => 1)
    (by norm_num) (by
      rw [div_self (by positivity)]
      refine lt_of_le_of_ne (Real.cos_le_one _) ?_
      rw [Ne, Real.cos_eq_one_iff_of_lt_of_lt]
      · norm_num
      · have := Real.pi_gt_three; linarith
      · have := Real.pi_gt_three; linarith) one_ne_zero (by norm_num)
    (dfactor_values Units.Earth.default 0 0 0 none).2 (fun _ _ => one_ne_zero)
  exact ⟨C, S, h, (h0 2 3 (by omega)).1⟩

/-- C70: the Gaussian `exp(-b (1 - cos α))` of the correlation, with the width `b` the kernel uses, falls to one half
at the angle of the half-width radius `hw` (km) on a sphere of radius `rad_e` (cm). -/
theorem half_width (hw rad_e : ℝ) (h : Real.cos (hw / (rad_e / 1e5)) ≠ 1) :
    Real.exp (-(widthB hw rad_e) * (1 - Real.cos (hw / (rad_e / 10 ^ 5)))) = 1 / 2 := by
  have e : (1e5 : ℝ) = 10 ^ 5 := by norm_num
  unfold widthB
  rw [e] at h ⊢
  have h' : 1 - Real.cos (hw / (rad_e / 10 ^ 5)) ≠ 0 := fun h0 => h (by linarith)
  rw [neg_mul, div_mul_cancel₀ _ h', Real.exp_neg, Real.exp_log (by norm_num)]
  norm_num

end Verif.Kernel
