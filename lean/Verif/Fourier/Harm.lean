import Verif.Fourier.Props
import Verif.Fourier.HarmModel
import Verif.Analysis.Trig
import Verif.Synthesis.Summation

/-!
# C73: spherical harmonic analysis by the Fourier method
-/
namespace Verif.Fourier
open Verif.Legendre Verif.Analysis Verif.Synthesis Finset

/-! ## discrete orthogonality on cell centred colatitudes -/

/-- centre of cell `i` of `N` equal cells of `(0, π)` -/
noncomputable def cell (N i : ℕ) : ℝ := ((i : ℝ) + 1 / 2) * Real.pi / N

theorem half_sum (N : ℕ) (hN : N ≠ 0) (f : ℝ → ℝ) (hf : ∀ t, f (2 * Real.pi - t) = f t) :
    ∑ i ∈ range (2 * N), f (reg (Real.pi / (2 * N)) (2 * N) i) = 2 * ∑ i ∈ range N, f (cell N i) := by
  have hN' : (N : ℝ) ≠ 0 := by exact_mod_cast hN
  rw [two_mul N, sum_range_add]
  have e1 : ∀ i, reg (Real.pi / (2 * N)) (N + N) i = cell N i := by
    intro i; unfold reg cell; push_cast; field_simp; ring
  have e2 : ∑ i ∈ range N, f (reg (Real.pi / (2 * N)) (N + N) (N + i)) = ∑ i ∈ range N, f (cell N i) := by
    rw [← sum_range_reflect]
    apply sum_congr rfl
    intro i hi
    have := mem_range.1 hi
    rw [← hf]
    congr 1
    unfold reg cell
    rw [show N + (N - 1 - i) = 2 * N - (1 + i) by omega, Nat.cast_sub (by omega)]
    push_cast
    field_simp
    ring
  rw [e2, sum_congr rfl (fun i _ => by rw [e1 i]), two_mul]

theorem tr_reflect (m n : ℕ) (t : ℝ) : tr m n (2 * Real.pi - t) = (if m % 2 = 0 then 1 else -1) * tr m n t := by
  unfold tr
  have e : (n : ℝ) * (2 * Real.pi - t) = n * (2 * Real.pi) - n * t := by ring
  split
  · rw [e, Real.cos_nat_mul_two_pi_sub, one_mul]
  · rw [e, Real.sin_nat_mul_two_pi_sub]; ring

theorem cell_orthogonal (N m j n : ℕ) (h : j + n < 2 * N) :
    ∑ i ∈ range N, tr m j (cell N i) * tr m n (cell N i) =
      if j = n then (if j = 0 then (if m % 2 = 0 then (N : ℝ) else 0) else N / 2) else 0 := by
  have hs := half_sum N (by omega) (fun t => tr m j t * tr m n t) (by
    intro t; rw [tr_reflect, tr_reflect]; split <;> ring)
  by_cases hm : m % 2 = 0
  · have := cosines (2 * N) j n h (Real.pi / (2 * N))
    simp only [tr, if_pos hm] at hs ⊢
    rw [this] at hs
    push_cast at hs
    split_ifs at hs ⊢ <;> linarith
  · have := sines (2 * N) j n h (Real.pi / (2 * N))
    simp only [tr, if_neg hm] at hs ⊢
    rw [this] at hs
    push_cast at hs
    split_ifs at hs ⊢ <;> linarith

/-! ## colatitude coefficients -/

/-- cosine or sine series of order `m` -/
noncomputable def serT (M m : ℕ) (a : ℕ → ℝ) (t : ℝ) : ℝ := ∑ j ∈ range (M + 1), a j * tr m j t

/-- The two permitted latitude orders. -/
def Cells (N : ℕ) (th : ℕ → ℝ) : Prop :=
  (∀ i < N, th i = cell N i) ∨ ∀ i < N, th i = cell N (N - 1 - i)

theorem Cells.sum {N : ℕ} {th : ℕ → ℝ} (h : Cells N th) (f : ℝ → ℝ) :
    ∑ i ∈ range N, f (th i) = ∑ i ∈ range N, f (cell N i) := by
  rcases h with h | h
  · exact sum_congr rfl fun i hi => by rw [h i (mem_range.1 hi)]
  · rw [← sum_range_reflect (fun i => f (cell N i))]
    exact sum_congr rfl fun i hi => by rw [h i (mem_range.1 hi)]

theorem Cells.step {N : ℕ} {th : ℕ → ℝ} (h : Cells N th) (hN : 2 ≤ N) : |th 1 - th 0| = Real.pi / N := by
  have hN' : (0:ℝ) < N := by exact_mod_cast (by omega : 0 < N)
  have hp := Real.pi_pos
  rcases h with h | h
  · rw [h 1 (by omega), h 0 (by omega)]
    have : cell N 1 - cell N 0 = Real.pi / N := by unfold cell; push_cast; ring
    rw [this, abs_of_pos (by positivity)]
  · rw [h 1 (by omega), h 0 (by omega)]
    have : cell N (N - 1 - 1) - cell N (N - 1 - 0) = -(Real.pi / N) := by
      unfold cell
      rw [show N - 1 - 1 = N - 2 by omega, show N - 1 - 0 = N - 1 by omega, Nat.cast_sub (by omega), Nat.cast_sub (by omega)]
      push_cast; ring
    rw [this, abs_neg, abs_of_pos (by positivity)]

theorem thInner_series (N M m n : ℕ) (th : ℕ → ℝ) (hc : Cells N th) (hM : M < N) (hn : n ≤ M) (a : ℕ → ℝ)
    (d : ℕ → ℕ → ℝ) (hd : ∀ i < N, d m i = serT M m a (th i)) :
    thInner N th d m n = if n = 0 then (if m % 2 = 0 then 2 * N * a 0 else 0) else N * a n := by
  have e : thInner N th d m n = 2 * ∑ j ∈ range (M + 1), a j * ∑ i ∈ range N, tr m j (cell N i) * tr m n (cell N i) := by
    unfold thInner
    congr 1
    rw [sum_congr rfl (g := fun i => (fun t => serT M m a t * tr m n t) (th i))
      (fun i hi => by rw [hd i (mem_range.1 hi)]), hc.sum (fun t => serT M m a t * tr m n t)]
    unfold serT
    simp only [sum_mul, mul_sum]
    rw [sum_comm]
    apply sum_congr rfl; intro j _
    apply sum_congr rfl; intro i _
    ring
  rw [e, sum_eq_single n]
  · rw [cell_orthogonal N m n n (by omega), if_pos rfl]
    by_cases h0 : n = 0
    · subst h0
      rw [if_pos rfl, if_pos rfl]
      split <;> ring
    · rw [if_neg h0, if_neg h0]; ring
  · intro j hj hjn
    have := mem_range.1 hj
    rw [cell_orthogonal N m j n (by omega), if_neg hjn, mul_zero]
  · intro h; exact absurd (mem_range.2 (by omega)) h

/-! ## the integrals -/

theorem kern_integral (m k n : ℕ) (h : (k + n) % 2 = 0) :
    ∫ t in (0 : ℝ)..Real.pi, tr m k t * tr m n t * Real.sin t = kern m k n := by
  by_cases hm : m % 2 = 0
  · simp only [tr, if_pos hm]
    rw [integral_cos_cos k n h]
    unfold kern
    rw [if_pos hm]; ring
  · simp only [tr, if_neg hm]
    rw [integral_sin_sin k n h]
    unfold kern
    rw [if_neg hm]; ring

theorem tr_continuous (m k : ℕ) : Continuous (tr m k) := by
  unfold tr
  split <;> fun_prop

/-- columns of the parity of `l` -/
def par (M l : ℕ) : Finset ℕ := (range (M + 1)).filter fun n => n % 2 = l % 2

theorem par_sum (M l : ℕ) (hM : M % 2 = 0) (f : ℕ → ℝ) :
    ((if l % 2 = 0 then arange2 0 (M + 1) else arange2 1 M).map f).sum = ∑ n ∈ par M l, f n := by
  obtain ⟨L, rfl⟩ : ∃ L, M = 2 * L := ⟨M / 2, by omega⟩
  unfold par
  rw [sum_filter]
  by_cases hl : l % 2 = 0
  · rw [if_pos hl, arange2_cols 0 (2 * L + 1) (L + 1) (by omega), sum_cols,
      sum_even L (fun n => if n % 2 = l % 2 then f n else 0) (by intro j hj; rw [if_neg (by omega)])]
    exact sum_congr rfl fun i _ => by rw [if_pos (by omega)]
  · rw [if_neg hl, arange2_cols 1 (2 * L) L (by omega), sum_cols,
      sum_odd L (fun n => if n % 2 = l % 2 then f n else 0) (by intro j hj; rw [if_neg (by omega)])]
    exact sum_congr rfl fun i _ => by rw [if_pos (by omega)]

theorem bilinear (m l M : ℕ) (b p : ℕ → ℝ) :
    ∑ n ∈ par M l, b n * ∑ k ∈ par M l, p k * kern m k n =
      ∫ t in (0 : ℝ)..Real.pi, (∑ n ∈ par M l, b n * tr m n t) * (∑ k ∈ par M l, p k * tr m k t) * Real.sin t := by
  have e : ∀ t : ℝ, (∑ n ∈ par M l, b n * tr m n t) * (∑ k ∈ par M l, p k * tr m k t) * Real.sin t =
      ∑ n ∈ par M l, ∑ k ∈ par M l, b n * p k * (tr m k t * tr m n t * Real.sin t) := by
    intro t
    rw [sum_mul_sum, sum_mul]
    apply sum_congr rfl; intro n _
    rw [sum_mul]
    apply sum_congr rfl; intro k _
    ring
  have hc : ∀ n k : ℕ, Continuous fun t => b n * p k * (tr m k t * tr m n t * Real.sin t) := by
    intro n k
    have := tr_continuous m k
    have := tr_continuous m n
    fun_prop
  rw [intervalIntegral.integral_congr (fun t _ => e t), intervalIntegral.integral_finsetSum
    (fun n _ => (continuous_finsetSum _ fun k _ => hc n k).intervalIntegrable _ _)]
  apply sum_congr rfl; intro n hn
  rw [intervalIntegral.integral_finsetSum (fun k _ => (hc n k).intervalIntegrable _ _), mul_sum]
  apply sum_congr rfl; intro k hk
  rw [intervalIntegral.integral_const_mul, kern_integral m k n (by
    have h1 := (mem_filter.1 hn).2; have h2 := (mem_filter.1 hk).2; omega)]
  ring

/-- One order: from the exact Fourier coefficients of `Σ c_l P_lm` the sums return `c_l`. -/
theorem sumT_exact (LMAX m l : ℕ) (he : LMAX % 2 = 0) (hm : m ≤ l) (hl : l ≤ LMAX) (P : A3)
    (hP : ∀ l m, m ≤ l → l ≤ LMAX → ∀ t : ℝ, serT LMAX m (P l m) t = Plm l m (Real.cos t) (Real.sin t))
    (hpar : ∀ l m j, j % 2 ≠ l % 2 → P l m j = 0) (c : ℕ → ℝ) (T : ℕ → ℕ → ℝ)
    (hT : ∀ n ≤ LMAX, T m n = if n = 0 ∧ m % 2 = 1 then 0 else ∑ l' ∈ Icc m LMAX, c l' * P l' m n) :
    sumT LMAX LMAX P T l m = c l := by
  unfold sumT
  have hcond : m ≤ LMAX ∧ (if l % 2 = 0 then l ≤ LMAX ∧ (m % 2 = 1 → 2 ≤ l) else l < LMAX) := by
    refine ⟨by omega, ?_⟩
    split <;> omega
  rw [if_pos hcond]
  dsimp only
  rw [par_sum LMAX l he, sum_congr rfl (fun n _ => by rw [par_sum LMAX l he]), bilinear]
  have h1 : ∀ l' ∈ Icc m LMAX, l' % 2 = l % 2 → ∀ t, ∑ k ∈ par LMAX l, P l' m k * tr m k t =
      Plm l' m (Real.cos t) (Real.sin t) := by
    intro l' hl' hp t
    rw [← hP l' m (mem_Icc.1 hl').1 (mem_Icc.1 hl').2 t]
    unfold serT par
    rw [sum_filter]
    apply sum_congr rfl; intro k _
    split
    · rfl
    · rw [hpar l' m k (by omega), zero_mul]
  have h2 : ∀ t, ∑ n ∈ par LMAX l, T m n * tr m n t =
      ∑ l' ∈ (Icc m LMAX).filter (fun l' => l' % 2 = l % 2), c l' * Plm l' m (Real.cos t) (Real.sin t) := by
    intro t
    have e : ∀ n ∈ par LMAX l, T m n * tr m n t =
        ∑ l' ∈ (Icc m LMAX).filter (fun l' => l' % 2 = l % 2), c l' * (P l' m n * tr m n t) := by
      intro n hn
      have hn1 := mem_filter.1 hn
      have hn2 := mem_range.1 hn1.1
      rw [hT n (by omega)]
      by_cases h0 : n = 0 ∧ m % 2 = 1
      · have : tr m n t = 0 := by unfold tr; rw [if_neg (by omega), h0.1]; simp
        rw [this]; simp
      · rw [if_neg h0, sum_filter, sum_mul]
        apply sum_congr rfl; intro l' _
        split
        · ring
        · rw [hpar l' m n (by omega)]; ring
    rw [sum_congr rfl e, sum_comm]
    apply sum_congr rfl; intro l' hl'
    rw [← mul_sum, h1 l' (mem_filter.1 hl').1 (mem_filter.1 hl').2 t]
  have h3 : ∀ t : ℝ, (∑ n ∈ par LMAX l, T m n * tr m n t) * (∑ k ∈ par LMAX l, P l m k * tr m k t) * Real.sin t =
      ∑ l' ∈ (Icc m LMAX).filter (fun l' => l' % 2 = l % 2), c l' *
        (Plm l m (Real.cos t) (Real.sin t) * Plm l' m (Real.cos t) (Real.sin t) * Real.sin t) := by
    intro t
    rw [h2 t, h1 l (mem_Icc.2 ⟨hm, hl⟩) rfl t, sum_mul, sum_mul]
    apply sum_congr rfl; intro l' _; ring
  have hcont : ∀ l', Continuous fun t => Plm l' m (Real.cos t) (Real.sin t) := by
    intro l'
    unfold Plm
    have : Continuous fun t => dLeg l' m (Real.cos t) := (D l' m).continuous.comp Real.continuous_cos
    fun_prop
  rw [intervalIntegral.integral_congr (fun t _ => h3 t), intervalIntegral.integral_finsetSum (fun l' _ =>
    (by have := hcont l; have := hcont l'; fun_prop : Continuous fun t => c l' *
        (Plm l m (Real.cos t) (Real.sin t) * Plm l' m (Real.cos t) (Real.sin t) * Real.sin t)).intervalIntegrable _ _)]
  rw [sum_eq_single l]
  · rw [intervalIntegral.integral_const_mul, Plm_orthogonal l l m hm, if_pos rfl]
    unfold dlt
    by_cases h0 : m = 0
    · rw [if_pos h0, if_pos h0]; ring
    · rw [if_neg h0, if_neg h0]; ring
  · intro l' _ hne
    rw [intervalIntegral.integral_const_mul, Plm_orthogonal l l' m hm, if_neg (fun h => hne h.symm), mul_zero]
  · intro h
    exact absurd ((mem_filter (p := fun l' => l' % 2 = l % 2)).2 ⟨mem_Icc.2 ⟨hm, hl⟩, rfl⟩) h

/-! ## longitude coefficients -/

theorem lonT_series (nlon M m i : ℕ) (h : 2 * M < nlon) (hm : m ≤ M) (a : ℝ) (phi : ℕ → ℝ)
    (hphi : ∀ k < nlon, phi k = reg a nlon k) (d : ℕ → ℕ → ℝ) (A B : ℕ → ℝ)
    (hd : ∀ k < nlon, d k i = ∑ n ∈ range (M + 1), (A n * Real.cos (n * phi k) + B n * Real.sin (n * phi k))) :
    lonT Real.cos nlon phi d m i = A m ∧ lonT Real.sin nlon phi d m i = if m = 0 then 0 else B m := by
  have hN : (0:ℝ) < nlon := by exact_mod_cast (by omega : 0 < nlon)
  have e : ∀ f : ℝ → ℝ, ∑ k ∈ range nlon, f ((m : ℝ) * phi k) * d k i =
      ∑ n ∈ range (M + 1), (A n * ∑ k ∈ range nlon, f (m * reg a nlon k) * Real.cos (n * reg a nlon k) +
        B n * ∑ k ∈ range nlon, f (m * reg a nlon k) * Real.sin (n * reg a nlon k)) := by
    intro f
    simp only [mul_sum, ← sum_add_distrib]
    rw [sum_comm]
    apply sum_congr rfl; intro k hk
    rw [hd k (mem_range.1 hk), hphi k (mem_range.1 hk), mul_sum]
    apply sum_congr rfl; intro n _
    ring
  have hc : ∀ n ∈ range (M + 1), ∑ k ∈ range nlon, Real.cos (m * reg a nlon k) * Real.sin (n * reg a nlon k) = 0 := by
    intro n hn
    have := mem_range.1 hn
    rw [← sine_cosines nlon n m (by omega) a]
    exact sum_congr rfl fun k _ => mul_comm _ _
  constructor
  · unfold lonT
    rw [e Real.cos, sum_eq_single m]
    · rw [hc m (mem_range.2 (by omega)), cosines nlon m m (by omega), if_pos rfl]
      by_cases h0 : m = 0
      · rw [if_pos h0, if_pos h0]; field_simp; ring
      · rw [if_neg h0, if_neg h0]; field_simp; ring
    · intro n hn hne
      have := mem_range.1 hn
      rw [hc n hn, cosines nlon m n (by omega), if_neg (fun h => hne h.symm)]; ring
    · intro h; exact absurd (mem_range.2 (by omega)) h
  · unfold lonT
    rw [e Real.sin, sum_eq_single m]
    · rw [sine_cosines nlon m m (by omega), sines nlon m m (by omega), if_pos rfl]
      by_cases h0 : m = 0
      · rw [if_pos h0, if_pos h0]; simp [h0]
      · rw [if_neg h0, if_neg h0, if_neg h0]; field_simp; ring
    · intro n hn hne
      have := mem_range.1 hn
      rw [sine_cosines nlon m n (by omega), sines nlon m n (by omega), if_neg (fun h => hne h.symm)]; ring
    · intro h; exact absurd (mem_range.2 (by omega)) h

end Verif.Fourier
