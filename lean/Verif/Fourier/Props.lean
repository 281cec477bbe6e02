import Verif.Fourier.Relate

/-!
# C71: `fourier_legendre` returns the Fourier coefficients of the Legendre functions
-/
namespace Verif.Fourier
open Verif.Legendre Finset

theorem nrm_Plm (l m : ℕ) (x u : ℝ) : u ^ m * dLeg l m x = 1 / nrm l m * Plm l m x u := by
  have := nrm_pos l m
  unfold Plm
  field_simp

theorem good_0e (L n mmax : ℕ) (hL : 2 ≤ L) (hn : n ≤ L) (hmm : mmax = 2 * L ∨ mmax = 2 * L + 1) :
    Good (2 * L) (base (2 * L) mmax) (2 * n) 0 := by
  intro t
  have hT := Te_pos n 0 (Nat.zero_le _)
  have hN := nrm_pos (2 * n) 0
  set f : ℝ → ℝ := fun t => ∑ i ∈ range (L + 1),
    row0e (2 * L) (2 * n) (0 + 2 * i) * Real.cos (((0 + 2 * i : ℕ) : ℝ) * t) with hf
  have hfv : ∀ t, f t = 1 / (Te n 0 * nrm (2 * n) 0) * Plm (2 * n) 0 (Real.cos t) (Real.sin t) := by
    intro t
    have h1 := legendre_even n L hn t
    have h2 := nrm_Plm (2 * n) 0 (Real.cos t) (Real.sin t)
    rw [pow_zero, one_mul, h1] at h2
    have h3 : f t = 1 / Te n 0 * ∑ i ∈ range (L + 1),
        (if i = 0 then Te n 0 / 2 else Te n i) * Real.cos (((2 * i : ℕ) : ℝ) * t) := by
      rw [hf, mul_sum]
      apply sum_congr rfl
      intro i hi
      rw [row0e_val L n hL i (by have := mem_range.1 hi; omega), Nat.zero_add]
      ring
    rw [h3, h2]
    field_simp
  have hb : ∀ j ∈ range (2 * L + 1), base (2 * L) mmax (2 * n) 0 j =
      row0e (2 * L) (2 * n) j / Real.sqrt ((∫ t in (0 : ℝ)..Real.pi, f t ^ 2 * Real.sin t) / (2 * dlt 0)) := by
    intro j hj
    have := mem_range.1 hj
    unfold base
    rw [if_pos ⟨by omega, by omega⟩, if_pos rfl, if_pos (by omega), arange2_cols 0 (2 * L + 2) (L + 1) (by omega),
      arange2_cols 0 (mmax + 1) (L + 1) (by omega), norm0_integral]
    rw [show 2 * dlt 0 = 2 by simp [dlt]]
  rw [← normalise (2 * n) 0 (Nat.zero_le _) f _ (by positivity) hfv t]
  unfold ser
  simp only [Nat.zero_mod, if_true]
  rw [sum_congr rfl (fun j hj => by rw [hb j hj]), sum_even L _ (by
    intro j hj; rw [row0e_odd L _ j hL hj]; simp), hf, sum_div]
  apply sum_congr rfl
  intro i _
  ring

theorem good_0o (L n mmax : ℕ) (hL : 2 ≤ L) (hn : n < L) (hmm : mmax = 2 * L ∨ mmax = 2 * L + 1) :
    Good (2 * L) (base (2 * L) mmax) (2 * n + 1) 0 := by
  intro t
  have hT := To_pos n 0 (Nat.zero_le _)
  have hN := nrm_pos (2 * n + 1) 0
  set f : ℝ → ℝ := fun t => ∑ i ∈ range L,
    row0o (2 * L) (2 * n + 1) (1 + 2 * i) * Real.cos (((1 + 2 * i : ℕ) : ℝ) * t) with hf
  have hfv : ∀ t, f t = 1 / (To n 0 * nrm (2 * n + 1) 0) * Plm (2 * n + 1) 0 (Real.cos t) (Real.sin t) := by
    intro t
    have h1 := legendre_odd n L hn t
    have h2 := nrm_Plm (2 * n + 1) 0 (Real.cos t) (Real.sin t)
    rw [pow_zero, one_mul, h1] at h2
    have h3 : f t = 1 / To n 0 * ∑ i ∈ range L, To n i * Real.cos (((2 * i + 1 : ℕ) : ℝ) * t) := by
      rw [hf, mul_sum]
      apply sum_congr rfl
      intro i hi
      rw [row0o_val L n hL i (mem_range.1 hi), add_comm 1]
      ring
    rw [h3, h2]
    field_simp
  have hb : ∀ j ∈ range (2 * L + 1), base (2 * L) mmax (2 * n + 1) 0 j =
      row0o (2 * L) (2 * n + 1) j / Real.sqrt ((∫ t in (0 : ℝ)..Real.pi, f t ^ 2 * Real.sin t) / (2 * dlt 0)) := by
    intro j hj
    have := mem_range.1 hj
    unfold base
    rw [if_pos ⟨by omega, by omega⟩, if_pos rfl, if_neg (by omega), arange2_cols 1 (2 * L + 1) L (by omega),
      arange2_cols 1 mmax L (by omega), norm0_integral]
    rw [show 2 * dlt 0 = 2 by simp [dlt]]
  rw [← normalise (2 * n + 1) 0 (Nat.zero_le _) f _ (by positivity) hfv t]
  unfold ser
  simp only [Nat.zero_mod, if_true]
  rw [sum_congr rfl (fun j hj => by rw [hb j hj]), sum_odd L _ (by
    intro j hj; rw [row0o_even L _ j hL hj]; simp), hf, sum_div]
  apply sum_congr rfl
  intro i _
  ring

/-- derivative of a cosine series of `P_l(cos t)` -/
theorem deriv_series (l N : ℕ) (a : ℕ → ℝ) (w : ℕ → ℕ)
    (h : ∀ t, dLeg l 0 (Real.cos t) = ∑ i ∈ range N, a i * Real.cos ((w i : ℝ) * t)) (t : ℝ) :
    ∑ i ∈ range N, a i * (w i * Real.sin ((w i : ℝ) * t)) = Real.sin t * dLeg l 1 (Real.cos t) := by
  have h1 : HasDerivAt (fun t => dLeg l 0 (Real.cos t)) (dLeg l 1 (Real.cos t) * -Real.sin t) t := by
    have := ((D l 0).hasDerivAt (Real.cos t)).comp t (Real.hasDerivAt_cos t)
    rw [← D_succ] at this
    exact this
  have h2 : HasDerivAt (fun t => ∑ i ∈ range N, a i * Real.cos ((w i : ℝ) * t))
      (∑ i ∈ range N, a i * (-Real.sin ((w i : ℝ) * t) * w i)) t := by
    apply HasDerivAt.fun_sum
    intro i _
    have h3 : HasDerivAt (fun t : ℝ => (w i : ℝ) * t) (w i) t := by
      simpa using (hasDerivAt_id t).const_mul (w i : ℝ)
    exact ((Real.hasDerivAt_cos _).comp t h3).const_mul _
  have h4 : (fun t => dLeg l 0 (Real.cos t)) = fun t => ∑ i ∈ range N, a i * Real.cos ((w i : ℝ) * t) :=
    funext h
  rw [h4] at h1
  have := h1.unique h2
  have e : ∑ i ∈ range N, a i * (-Real.sin ((w i : ℝ) * t) * w i) =
      -∑ i ∈ range N, a i * (w i * Real.sin ((w i : ℝ) * t)) := by
    rw [← sum_neg_distrib]
    exact sum_congr rfl fun i _ => by ring
  rw [e] at this
  linarith

theorem good_1e (L n mmax : ℕ) (hL : 2 ≤ L) (hn : n ≤ L) (hn1 : 1 ≤ n) (hmm : mmax = 2 * L ∨ mmax = 2 * L + 1) :
    Good (2 * L) (base (2 * L) mmax) (2 * n) 1 := by
  intro t
  have hT := Te_pos n 1 hn1
  have hN := nrm_pos (2 * n) 1
  set f : ℝ → ℝ := fun t => ∑ i ∈ range (L + 1),
    row1e (2 * L) (2 * n) (0 + 2 * i) * Real.sin (((0 + 2 * i : ℕ) : ℝ) * t) with hf
  have hfv : ∀ t, f t = 1 / (2 * Te n 1 * nrm (2 * n) 1) * Plm (2 * n) 1 (Real.cos t) (Real.sin t) := by
    intro t
    have h1 := deriv_series (2 * n) (L + 1) _ (fun i => 2 * i) (legendre_even n L hn) t
    have h2 := nrm_Plm (2 * n) 1 (Real.cos t) (Real.sin t)
    rw [pow_one, ← h1] at h2
    have h3 : f t = 1 / (2 * Te n 1) * ∑ i ∈ range (L + 1),
        (if i = 0 then Te n 0 / 2 else Te n i) * (((2 * i : ℕ) : ℝ) * Real.sin (((2 * i : ℕ) : ℝ) * t)) := by
      rw [hf, mul_sum]
      apply sum_congr rfl
      intro i hi
      rw [row1e_val L n hL hn1 i (by have := mem_range.1 hi; omega), Nat.zero_add]
      by_cases hi0 : i = 0
      · subst hi0; simp
      · rw [if_neg hi0]
        push_cast
        field_simp
    rw [h3, h2]
    field_simp
  have hb : ∀ j ∈ range (2 * L + 1), base (2 * L) mmax (2 * n) 1 j =
      row1e (2 * L) (2 * n) j / Real.sqrt ((∫ t in (0 : ℝ)..Real.pi, f t ^ 2 * Real.sin t) / (2 * dlt 1)) := by
    intro j hj
    have := mem_range.1 hj
    unfold base
    rw [if_pos ⟨by omega, by omega⟩, if_neg (by omega), if_pos rfl, if_pos (by omega),
      arange2_cols 0 (2 * L + 2) (L + 1) (by omega),
      arange2_cols 0 (mmax + 1) (L + 1) (by omega), norm1_integral]
    rw [show 2 * dlt 1 = 4 by simp [dlt]; norm_num]
  rw [← normalise (2 * n) 1 (by omega) f _ (by positivity) hfv t]
  unfold ser
  simp only [show ¬ (1 % 2 = 0) by omega, if_false]
  rw [sum_congr rfl (fun j hj => by rw [hb j hj]), sum_even L _ (by
    intro j hj; rw [row1e_odd L _ j hL hj]; simp), hf, sum_div]
  apply sum_congr rfl
  intro i _
  ring

theorem good_1o (L n mmax : ℕ) (hL : 2 ≤ L) (hn : n < L) (hmm : mmax = 2 * L ∨ mmax = 2 * L + 1) :
    Good (2 * L) (base (2 * L) mmax) (2 * n + 1) 1 := by
  intro t
  have hT := To_pos n 0 (Nat.zero_le _)
  have hN := nrm_pos (2 * n + 1) 1
  set f : ℝ → ℝ := fun t => ∑ i ∈ range L,
    row1o (2 * L) (2 * n + 1) (1 + 2 * i) * Real.sin (((1 + 2 * i : ℕ) : ℝ) * t) with hf
  have hfv : ∀ t, f t = 1 / (To n 0 * nrm (2 * n + 1) 1) * Plm (2 * n + 1) 1 (Real.cos t) (Real.sin t) := by
    intro t
    have h1 := deriv_series (2 * n + 1) L _ (fun i => 2 * i + 1) (legendre_odd n L hn) t
    have h2 := nrm_Plm (2 * n + 1) 1 (Real.cos t) (Real.sin t)
    rw [pow_one, ← h1] at h2
    have h3 : f t = 1 / To n 0 * ∑ i ∈ range L,
        To n i * (((2 * i + 1 : ℕ) : ℝ) * Real.sin (((2 * i + 1 : ℕ) : ℝ) * t)) := by
      rw [hf, mul_sum]
      apply sum_congr rfl
      intro i hi
      rw [row1o_val L n hL i (mem_range.1 hi), add_comm 1]
      push_cast
      ring
    rw [h3, h2]
    field_simp
  have hb : ∀ j ∈ range (2 * L + 1), base (2 * L) mmax (2 * n + 1) 1 j =
      row1o (2 * L) (2 * n + 1) j / Real.sqrt ((∫ t in (0 : ℝ)..Real.pi, f t ^ 2 * Real.sin t) / (2 * dlt 1)) := by
    intro j hj
    have := mem_range.1 hj
    unfold base
    rw [if_pos ⟨by omega, by omega⟩, if_neg (by omega), if_pos rfl, if_neg (by omega),
      arange2_cols 1 (2 * L + 1) L (by omega),
      arange2_cols 1 mmax L (by omega), norm1_integral]
    rw [show 2 * dlt 1 = 4 by simp [dlt]; norm_num]
  rw [← normalise (2 * n + 1) 1 (by omega) f _ (by positivity) hfv t]
  unfold ser
  simp only [show ¬ (1 % 2 = 0) by omega, if_false]
  rw [sum_congr rfl (fun j hj => by rw [hb j hj]), sum_odd L _ (by
    intro j hj; rw [row1o_even L _ j hL hj]; simp), hf, sum_div]
  apply sum_congr rfl
  intro i _
  ring

theorem base_ok (L mmax : ℕ) (hL : 2 ≤ L) (hmm : mmax = 2 * L ∨ mmax = 2 * L + 1) :
    Ok (2 * L) (base (2 * L) mmax) (fun l m => l ≤ 2 * L ∧ m ≤ 1 ∧ m ≤ l) := by
  refine ⟨?_, ?_, ?_⟩
  · intro l m j hj
    unfold base
    by_cases h1 : l ≤ 2 * L ∧ j ≤ 2 * L
    · rw [if_pos h1]
      by_cases h2 : m = 0
      · rw [if_pos h2]
        by_cases h3 : l % 2 = 0
        · rw [if_pos h3, row0e_odd L l j hL (by omega), zero_div]
        · rw [if_neg h3, row0o_even L l j hL (by omega), zero_div]
      · rw [if_neg h2]
        by_cases h4 : m = 1
        · rw [if_pos h4]
          by_cases h3 : l % 2 = 0
          · rw [if_pos h3, row1e_odd L l j hL (by omega), zero_div]
          · rw [if_neg h3, row1o_even L l j hL (by omega), zero_div]
        · rw [if_neg h4]
    · rw [if_neg h1]
  · intro l m j h1 h2
    unfold base
    split
    · rw [if_neg (by omega), if_neg (by omega)]
    · rfl
  · intro l m h
    obtain ⟨h1, h2, h3⟩ := h
    have hm : m = 0 ∨ m = 1 := by omega
    rcases Nat.even_or_odd' l with ⟨n, rfl | rfl⟩
    · rcases hm with rfl | rfl
      · exact good_0e L n mmax hL (by omega) hmm
      · exact good_1e L n mmax hL (by omega) (by omega) hmm
    · rcases hm with rfl | rfl
      · exact good_0o L n mmax hL (by omega) hmm
      · exact good_1o L n mmax hL (by omega) hmm

theorem loops_ok (L mmax : ℕ) (hL : 2 ≤ L) (hmm : mmax = 2 * L ∨ mmax = 2 * L + 1) :
    ∃ P, fourierLegendre (2 * L) mmax = some P ∧ Ok (2 * L) P (fun l m => l ≤ 2 * L ∧ m ≤ l) := by
  unfold fourierLegendre
  rw [if_pos ⟨by omega, by omega, by omega, by omega⟩]
  refine ⟨_, rfl, ?_⟩
  have em : arange2 0 (mmax + 1) = cols 0 (L + 1) := arange2_cols _ _ _ (by omega)
  have om : arange2 1 mmax = cols 1 L := arange2_cols _ _ _ (by omega)
  rw [em, om]
  have e1 : ∀ j ∈ cols 0 (L + 1), j % 2 = 0 := by
    intro j hj; obtain ⟨i, _, rfl⟩ := (mem_cols _ _ _).1 hj; omega
  have e2 : ∀ j ≤ 2 * L, j % 2 = 0 → j ∈ cols 0 (L + 1) := by
    intro j hj h; exact (mem_cols _ _ _).2 ⟨j / 2, by omega, by omega⟩
  have o1 : ∀ j ∈ cols 1 L, j % 2 = 1 := by
    intro j hj; obtain ⟨i, _, rfl⟩ := (mem_cols _ _ _).1 hj; omega
  have o2 : ∀ j ≤ 2 * L, j % 2 = 1 → j ∈ cols 1 L := by
    intro j hj h; exact (mem_cols _ _ _).2 ⟨j / 2, by omega, by omega⟩
  have h20 : (2 : ℝ) * dlt 0 = 2 := by simp [dlt]
  -- order 2 from order 0
  have hA := fold_range' (fun i P => Ok (2 * L) P (fun l m => (l ≤ 2 * L ∧ m ≤ 1 ∧ m ≤ l) ∨
      (m = 2 ∧ l % 2 = 0 ∧ l < i + 2))) (relate 2 (cols 0 (L + 1)) 0) 0 (2 * L - 1) (base (2 * L) mmax)
    ((base_ok L mmax hL hmm).mono (by intro l m h; omega)) (by
      intro i Q hi hQ
      rw [Nat.zero_add]
      by_cases hp : i % 2 = 0
      · refine (relate_step (2 * L) 2 _ 0 i Q _ hQ (Nat.zero_le _) h20 (fun j hj => by rw [e1 j hj, hp])
          (fun j hj h => e2 j hj (by omega)) (by omega) (by omega) (by omega)).mono ?_
        intro l m h; omega
      · rw [relate_noop 2 _ 0 Q i hQ.1 (fun j hj => by rw [e1 j hj]; omega)]
        exact hQ.mono (by intro l m h; omega))
  have hB := fold_range' (fun i P => Ok (2 * L) P (fun l m => (l ≤ 2 * L ∧ m ≤ 1 ∧ m ≤ l) ∨
      (m = 2 ∧ l % 2 = 0 ∧ l ≤ 2 * L) ∨ (m = 2 ∧ l % 2 = 1 ∧ l < i + 3))) (relate 2 (cols 1 L) 0) 1 (2 * L - 2) _
    (hA.mono (by intro l m h; omega)) (by
      intro i Q hi hQ
      by_cases hp : i % 2 = 0
      · refine (relate_step (2 * L) 2 _ 0 (1 + i) Q _ hQ (Nat.zero_le _) h20 (fun j hj => by rw [o1 j hj]; omega)
          (fun j hj h => o2 j hj (by omega)) (by omega) (by omega) (by omega)).mono ?_
        intro l m h; omega
      · rw [relate_noop 2 _ 0 Q (1 + i) hQ.1 (fun j hj => by rw [o1 j hj]; omega)]
        exact hQ.mono (by intro l m h; omega))
  rw [arange2_cols 2 (2 * L) (L - 1) (by omega), arange2_cols 1 (2 * L - 1) (L - 1) (by omega)]
  have hC := fold_cols (fun i P => Ok (2 * L) P (fun l m => (l ≤ 2 * L ∧ m ≤ 1 ∧ m ≤ l) ∨
      (m % 2 = 0 ∧ m < 2 * i + 4 ∧ l ≤ 2 * L))) (evenOrders (2 * L) (cols 0 (L + 1)) (cols 1 L)) 2 (L - 1) _
    (hB.mono (by intro l m h; omega)) (by
      intro i Q hi hQ
      unfold evenOrders
      rw [arange2_cols (2 + 2 * i) (2 * L) (L - 1 - i) (by omega),
        arange2_cols (2 + 2 * i + 1) (2 * L - 1) (L - 2 - i) (by omega)]
      have a1 := inner (2 * L) (2 + 2 * i) (2 + 2 * i) (L - 1 - i) (cols 0 (L + 1)) Q _ hQ (by omega) (by omega)
        (by omega) (fun j hj => by rw [e1 j hj]; omega) (fun j hj h => e2 j hj (by omega))
        (by intro k hk; omega)
      have a2 := inner (2 * L) (2 + 2 * i) (2 + 2 * i + 1) (L - 2 - i) (cols 1 L) _ _ a1 (by omega) (by omega)
        (by omega) (fun j hj => by rw [o1 j hj]; omega) (fun j hj h => o2 j hj (by omega))
        (by intro k hk; omega)
      exact a2.mono (by intro l m h; omega))
  have hD := fold_cols (fun i P => Ok (2 * L) P (fun l m => (l ≤ 2 * L ∧ m = 0) ∨
      (m % 2 = 0 ∧ l ≤ 2 * L ∧ m ≤ l) ∨ (m % 2 = 1 ∧ m < 2 * i + 3 ∧ l ≤ 2 * L ∧ m ≤ l)))
      (oddOrders (2 * L) (cols 0 (L + 1)) (cols 1 L)) 1 (L - 1) _
    (hC.mono (by intro l m h; omega)) (by
      intro i Q hi hQ
      unfold oddOrders
      rw [arange2_cols (1 + 2 * i + 1) (2 * L - 1) (L - 1 - i) (by omega),
        arange2_cols (1 + 2 * i) (2 * L - 1) (L - 1 - i) (by omega)]
      have a1 := inner (2 * L) (1 + 2 * i) (1 + 2 * i + 1) (L - 1 - i) (cols 0 (L + 1)) Q _ hQ (by omega) (by omega)
        (by omega) (fun j hj => by rw [e1 j hj]; omega) (fun j hj h => e2 j hj (by omega))
        (by intro k hk; omega)
      have a2 := inner (2 * L) (1 + 2 * i) (1 + 2 * i) (L - 1 - i) (cols 1 L) _ _ a1 (by omega) (by omega)
        (by omega) (fun j hj => by rw [o1 j hj]; omega) (fun j hj h => o2 j hj (by omega))
        (by intro k hk; omega)
      exact a2.mono (by intro l m h; omega))
  exact hD.mono (by intro l m h; omega)

/-! ## C71 -/

/-- For every even `lmax ≥ 4` and `mmax = lmax` the function returns, for every degree and order,
coefficients whose cosine series (even orders) or sine series (odd orders) is the fully normalised
associated Legendre function, at every colatitude. -/
theorem fourierLegendre_correct (lmax : ℕ) (he : lmax % 2 = 0) (h4 : 4 ≤ lmax) :
    ∃ P, fourierLegendre lmax lmax = some P ∧ ∀ l m, m ≤ l → l ≤ lmax → ∀ t : ℝ,
      ∑ j ∈ range (lmax + 1), P l m j * (if m % 2 = 0 then Real.cos (j * t) else Real.sin (j * t)) =
        Plm l m (Real.cos t) (Real.sin t) := by
  obtain ⟨L, rfl⟩ : ∃ L, lmax = 2 * L := ⟨lmax / 2, by omega⟩
  obtain ⟨P, hP, hok⟩ := loops_ok L (2 * L) (by omega) (Or.inl rfl)
  exact ⟨P, hP, fun l m h1 h2 t => hok.2.2 l m ⟨h2, h1⟩ t⟩

example : ∃ P, fourierLegendre 60 60 = some P ∧ ∀ l m, m ≤ l → l ≤ 60 → ∀ t : ℝ,
      ∑ j ∈ range 61, P l m j * (if m % 2 = 0 then Real.cos (j * t) else Real.sin (j * t)) =
        Plm l m (Real.cos t) (Real.sin t) := fourierLegendre_correct 60 (by norm_num) (by norm_num)

/-- Only frequencies of the parity of the degree occur, and rows above the diagonal are zero from
order 2. -/
theorem fourierLegendre_zero (lmax : ℕ) (he : lmax % 2 = 0) (h4 : 4 ≤ lmax) (P : A3)
    (hP : fourierLegendre lmax lmax = some P) (l m j : ℕ) :
    (j % 2 ≠ l % 2 → P l m j = 0) ∧ (2 ≤ m → l < m → P l m j = 0) := by
  obtain ⟨L, rfl⟩ : ∃ L, lmax = 2 * L := ⟨lmax / 2, by omega⟩
  obtain ⟨P', hP', hok⟩ := loops_ok L (2 * L) (by omega) (Or.inl rfl)
  rw [hP] at hP'
  cases hP'
  exact ⟨hok.1 l m j, hok.2.1 l m j⟩

/-- Odd `lmax` and `lmax < 4` raise an exception (also the documented use with `lmax = mmax = 2`). -/
theorem fourierLegendre_domain (lmax : ℕ) : fourierLegendre lmax lmax = none ↔ lmax % 2 = 1 ∨ lmax < 4 := by
  unfold fourierLegendre
  constructor
  · intro h
    by_contra hc
    rw [if_pos (by omega)] at h
    cases h
  · intro h
    rw [if_neg (by omega)]

end Verif.Fourier
