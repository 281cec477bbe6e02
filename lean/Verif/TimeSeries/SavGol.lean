import Verif.TimeSeries.SmoothModel
import Mathlib.Algebra.Polynomial.Taylor
import Mathlib.Algebra.Polynomial.Roots
import Mathlib.Tactic.Linarith

/-!
# C53: `savitzky_golay`
-/
namespace Verif.TimeSeries
open Matrix Finset Polynomial

/-- the window length used: the given one or the default -/
def sgLength (WINDOW : Option ℤ) (ORDER : ℕ) : ℤ := WINDOW.getD ((ORDER : ℤ) - (ORDER % 2 : ℕ) + 3)

/-- C53: the default window is odd and long enough -/
theorem sgLength_default (ORDER : ℕ) : sgLength none ORDER % 2 = 1 ∧ (ORDER : ℤ) + 2 ≤ sgLength none ORDER ∧
    sgLength none ORDER ≤ ORDER + 3 := by
  unfold sgLength; simp only [Option.getD_none]; omega

theorem sgWindow_eq (WINDOW : Option ℤ) (ORDER : ℕ) (w : ℕ) :
    sgWindow WINDOW ORDER = some w ↔ sgLength WINDOW ORDER = w ∧ w % 2 = 1 ∧ ORDER + 2 ≤ w := by
  unfold sgWindow sgLength
  generalize WINDOW.getD ((ORDER : ℤ) - (ORDER % 2 : ℕ) + 3) = z
  dsimp only
  by_cases h1 : z % 2 ≠ 1 ∨ z < 1
  · rw [if_pos h1]; simp only [reduceCtorEq, false_iff]; omega
  · rw [if_neg h1]
    by_cases h2 : z < ORDER + 2
    · rw [if_pos h2]; simp only [reduceCtorEq, false_iff]; omega
    · rw [if_neg h2]; simp only [Option.some.injEq]; omega

theorem sgWindow_none (WINDOW : Option ℤ) (ORDER : ℕ) :
    sgWindow WINDOW ORDER = none ↔ sgLength WINDOW ORDER % 2 ≠ 1 ∨ sgLength WINDOW ORDER < ORDER + 2 := by
  unfold sgWindow sgLength
  generalize WINDOW.getD ((ORDER : ℤ) - (ORDER % 2 : ℕ) + 3) = z
  dsimp only
  by_cases h1 : z % 2 ≠ 1 ∨ z < 1
  · rw [if_pos h1]; simp only [true_iff]; omega
  · rw [if_neg h1]
    by_cases h2 : z < ORDER + 2
    · rw [if_pos h2]; simp only [true_iff]; omega
    · rw [if_neg h2]; simp only [reduceCtorEq, false_iff]; omega

/-- C53: it raises exactly for an even window, one shorter than `ORDER + 2`, one sample, fewer samples than the
two half windows, or a derivative above the order when there is a value to compute -/
theorem savgol_none (n : ℕ) (t y : ℕ → ℝ) (WINDOW : Option ℤ) (ORDER DERIV : ℕ) (RATE e : ℝ) :
    savitzkyGolay n t y WINDOW ORDER DERIV RATE e = none ↔
      (sgLength WINDOW ORDER % 2 ≠ 1 ∨ sgLength WINDOW ORDER < ORDER + 2 ∨ n = 1 ∨ (n : ℤ) < sgLength WINDOW ORDER - 1 ∨
        (sgLength WINDOW ORDER ≤ n ∧ ORDER < DERIV)) := by
  unfold savitzkyGolay
  cases hw : sgWindow WINDOW ORDER with
  | none =>
    simp only [true_iff]
    rcases (sgWindow_none _ _).1 hw with h | h
    · exact Or.inl h
    · exact Or.inr (Or.inl h)
  | some w =>
    obtain ⟨h1, h2, h3⟩ := (sgWindow_eq _ _ _).1 hw
    dsimp only
    by_cases hc : n = 1 ∨ n < 2 * ((w - 1) / 2) ∨ (2 * ((w - 1) / 2) < n ∧ ORDER < DERIV)
    · rw [if_pos hc]
      simp only [true_iff, h1]
      omega
    · rw [if_neg hc]
      simp only [reduceCtorEq, false_iff, h1]
      omega

/-! ## the window polynomial -/

/-- the polynomial with coefficients `v` in powers of `x - a` -/
noncomputable def polyAt {m : ℕ} (a : ℝ) (v : Fin m → ℝ) : ℝ[X] := taylor (-a) (∑ c : Fin m, C (v c) * X ^ (c : ℕ))

theorem polyAt_taylor {m : ℕ} (a : ℝ) (v : Fin m → ℝ) : taylor a (polyAt a v) = ∑ c : Fin m, C (v c) * X ^ (c : ℕ) := by
  unfold polyAt; rw [taylor_taylor, add_neg_cancel, taylor_zero]

theorem polyAt_coeff {m : ℕ} (a : ℝ) (v : Fin m → ℝ) (c : Fin m) : (taylor a (polyAt a v)).coeff c = v c := by
  rw [polyAt_taylor, finsetSum_coeff]
  simp only [coeff_C_mul, coeff_X_pow]
  rw [Finset.sum_eq_single c]
  · simp
  · intro b _ hb
    rw [if_neg (fun h => hb (Fin.ext h.symm)), mul_zero]
  · simp

theorem eval_eq_taylor (a x : ℝ) (P : ℝ[X]) : P.eval x = (taylor a P).eval (x - a) := by
  rw [taylor_eval]; congr 1; ring

theorem polyAt_eval {m : ℕ} (a : ℝ) (v : Fin m → ℝ) (x : ℝ) : (polyAt a v).eval x = ∑ c : Fin m, v c * (x - a) ^ (c : ℕ) := by
  rw [eval_eq_taylor a, polyAt_taylor, eval_finsetSum]
  exact Finset.sum_congr rfl fun c _ => by simp

theorem polyAt_degree {m : ℕ} (a : ℝ) (v : Fin (m + 1) → ℝ) : (polyAt a v).natDegree ≤ m := by
  unfold polyAt
  rw [natDegree_taylor]
  refine natDegree_sum_le_of_forall_le _ _ fun c _ => ?_
  exact (natDegree_C_mul_X_pow_le _ _).trans (by have := c.2; omega)

/-- every polynomial of the degree is of this form -/
theorem eval_coeffs {m : ℕ} (a : ℝ) (P : ℝ[X]) (hP : P.natDegree ≤ m) (x : ℝ) :
    P.eval x = ∑ c : Fin (m + 1), (taylor a P).coeff c * (x - a) ^ (c : ℕ) := by
  rw [eval_eq_taylor a, eval_eq_sum_range' (n := m + 1) (by rw [natDegree_taylor]; omega), Finset.sum_range]

theorem deriv_coeff (a : ℝ) (P : ℝ[X]) (k : ℕ) : (k.factorial : ℝ) * (taylor a P).coeff k = (derivative^[k] P).eval a := by
  have := congrFun (factorial_smul_hasseDeriv (R := ℝ) (k := k)) P
  rw [taylor_coeff]
  rw [← this]
  simp

/-- distinct times determine the polynomial -/
theorem vander_fullRank {h ORDER : ℕ} {t : ℕ → ℝ} {i : ℕ} (hO : ORDER ≤ 2 * h)
    (ht : ∀ r ≤ 2 * h, ∀ s ≤ 2 * h, t (i + r) = t (i + s) → r = s) : FullRank (vander h ORDER t i) := by
  intro v hv
  have hz : polyAt (t (i + h)) v = 0 := by
    by_contra hne
    have hroots : (Finset.univ.image fun r : Fin (2 * h + 1) => t (i + r)) ⊆ (polyAt (t (i + h)) v).roots.toFinset := by
      intro x hx
      obtain ⟨r, -, rfl⟩ := Finset.mem_image.1 hx
      rw [Multiset.mem_toFinset, mem_roots hne, IsRoot.def, polyAt_eval]
      rw [← hv r]
      exact Finset.sum_congr rfl fun c _ => mul_comm _ _
    have hcard : (Finset.univ.image fun r : Fin (2 * h + 1) => t (i + r)).card = 2 * h + 1 := by
      rw [Finset.card_image_of_injective, Finset.card_univ, Fintype.card_fin]
      intro r s hrs
      exact Fin.ext (ht r (by have := r.2; omega) s (by have := s.2; omega) hrs)
    have h1 := Finset.card_le_card hroots
    have h2 := Multiset.toFinset_card_le (polyAt (t (i + h)) v).roots
    have h3 := card_roots' (polyAt (t (i + h)) v)
    have h4 := polyAt_degree (t (i + h)) v
    omega
  funext c
  have := polyAt_coeff (t (i + h)) v c
  rw [hz, map_zero, coeff_zero] at this
  exact this.symm

/-- the middle value of the convolution with the padded window does not see the padding -/
theorem convolve_mid (h : ℕ) (m y : ℕ → ℝ) (i : ℕ) :
    convolveValid (2 * h + 1) (fun j => m (2 * h - j)) (padded h y i) h = ∑ r ∈ range (2 * h + 1), m r * y (i + r) := by
  unfold convolveValid
  rw [← Finset.sum_range_reflect]
  refine Finset.sum_congr rfl fun j hj => ?_
  have := mem_range.1 hj
  have e : 2 * h - (2 * h + 1 - 1 - j) = j := by omega
  have e2 : h + (2 * h + 1 - 1) - (2 * h + 1 - 1 - j) = h + j := by omega
  dsimp only
  rw [e, e2]
  unfold padded
  rw [if_neg (by omega), if_pos (by omega)]
  congr 2; omega

/-- distinct times in the window starting at `i` -/
def Distinct (t : ℕ → ℝ) (i w : ℕ) : Prop := ∀ r < w, ∀ s < w, t (i + r) = t (i + s) → r = s

/-- C53: there are `n - w + 1` values at the times without the half windows.  Each value is
`RATE^DERIV` times the `DERIV`-th derivative, at the central time, of the polynomial of degree at most `ORDER`
that fits the `w` samples of its window best -/
theorem savgol_spec {n : ℕ} {t y : ℕ → ℝ} {WINDOW : Option ℤ} {ORDER DERIV : ℕ} {RATE e : ℝ} {N : ℕ}
    {data err time : ℕ → ℝ} (hs : savitzkyGolay n t y WINDOW ORDER DERIV RATE e = some (N, data, err, time)) :
    ∃ w : ℕ, (w : ℤ) = sgLength WINDOW ORDER ∧ w % 2 = 1 ∧ ORDER + 2 ≤ w ∧ N + (w - 1) = n ∧
      ∀ i < N, time i = t (i + w / 2) ∧
        (Distinct t i w → ∃ P : ℝ[X], P.natDegree ≤ ORDER ∧
          (∀ Q : ℝ[X], Q.natDegree ≤ ORDER →
            ∑ r ∈ range w, (y (i + r) - P.eval (t (i + r))) ^ 2 ≤ ∑ r ∈ range w, (y (i + r) - Q.eval (t (i + r))) ^ 2) ∧
          data i = RATE ^ DERIV * (derivative^[DERIV] P).eval (time i)) := by
  unfold savitzkyGolay at hs
  split at hs
  · cases hs
  rename_i w hw
  obtain ⟨h1, h2, h3⟩ := (sgWindow_eq _ _ _).1 hw
  dsimp only at hs
  split at hs
  · cases hs
  rename_i hc
  simp only [Option.some.injEq, Prod.mk.injEq] at hs
  obtain ⟨rfl, rfl, rfl, rfl⟩ := hs
  obtain ⟨h, rfl⟩ : ∃ h, w = 2 * h + 1 := ⟨w / 2, by omega⟩
  have e1 : (2 * h + 1 - 1) / 2 = h := by omega
  have e2 : (2 * h + 1) / 2 = h := by omega
  rw [e1] at hc ⊢
  refine ⟨2 * h + 1, h1.symm, h2, h3, by omega, fun i hi => ⟨by rw [e2], fun hd => ?_⟩⟩
  have hfr : FullRank (vander h ORDER t i) :=
    vander_fullRank (by omega) fun r hr s hs' => hd r (by omega) s (by omega)
  have hD : DERIV < ORDER + 1 := by omega
  set b := lstsq (vander h ORDER t i) (fun r => y (i + r)) with hb
  have hfit : ∀ (v : Fin (ORDER + 1) → ℝ) (Q : ℝ[X]), (∀ x, Q.eval x = ∑ c : Fin (ORDER + 1), v c * (x - t (i + h)) ^ (c : ℕ)) →
      ∑ r ∈ range (2 * h + 1), (y (i + r) - Q.eval (t (i + r))) ^ 2 = sse (vander h ORDER t i) (fun r => y (i + r)) v := by
    intro v Q hQ
    rw [Finset.sum_range]
    unfold sse
    refine Finset.sum_congr rfl fun r _ => ?_
    rw [hQ]
    congr 2
    exact Finset.sum_congr rfl fun c _ => mul_comm _ _
  refine ⟨polyAt (t (i + h)) b, polyAt_degree _ _, fun Q hQ => ?_, ?_⟩
  · rw [hfit b _ (polyAt_eval _ _), hfit _ Q (eval_coeffs (t (i + h)) Q hQ)]
    exact (lstsq_spec _ _).1 _
  · refine (convolve_mid _ _ _ _).trans ?_
    dsimp only
    rw [← deriv_coeff, polyAt_coeff (t (i + h)) b ⟨DERIV, hD⟩, hb, ← pinv_apply hfr, Finset.sum_range,
      ← mul_assoc, Finset.mul_sum]
    refine Finset.sum_congr rfl fun r _ => ?_
    unfold sgCoeff
    rw [dif_pos ⟨r.2, hD⟩]
    ring

/-- C53: samples of a polynomial of degree at most `ORDER` (at times distinct within the window) give the
polynomial or its derivative exactly -/
theorem savgol_exact {n : ℕ} {t y : ℕ → ℝ} {WINDOW : Option ℤ} {ORDER DERIV : ℕ} {RATE e : ℝ} {N : ℕ}
    {data err time : ℕ → ℝ} (hs : savitzkyGolay n t y WINDOW ORDER DERIV RATE e = some (N, data, err, time))
    (ht : ∀ r < n, ∀ s < n, t r = t s → r = s) (P : ℝ[X]) (hP : P.natDegree ≤ ORDER) (hy : ∀ k < n, y k = P.eval (t k)) :
    ∀ i < N, data i = RATE ^ DERIV * (derivative^[DERIV] P).eval (time i) := by
  obtain ⟨w, -, -, hw, hN, h⟩ := savgol_spec hs
  intro i hi
  have hd : Distinct t i w := fun r hr s hs' hrs => by
    have := ht (i + r) (by omega) (i + s) (by omega) hrs; omega
  obtain ⟨Q, hQ, hmin, hdat⟩ := (h i hi).2 hd
  have hz : ∑ r ∈ range w, (y (i + r) - P.eval (t (i + r))) ^ 2 = 0 :=
    Finset.sum_eq_zero fun r hr => by
      rw [hy _ (by have := mem_range.1 hr; omega)]; ring
  have hle := hmin P hP
  rw [hz] at hle
  have h0 := (Finset.sum_eq_zero_iff_of_nonneg (fun r _ => sq_nonneg _)).1
    (le_antisymm hle (Finset.sum_nonneg fun r _ => sq_nonneg _))
  have hQP : Q = P := by
    by_contra hne
    have hne' : Q - P ≠ 0 := sub_ne_zero.2 hne
    have hroots : ((range w).image fun r => t (i + r)) ⊆ (Q - P).roots.toFinset := by
      intro x hx
      obtain ⟨r, hr, rfl⟩ := Finset.mem_image.1 hx
      rw [Multiset.mem_toFinset, mem_roots hne', IsRoot.def, eval_sub]
      have h1 := pow_eq_zero_iff (two_ne_zero) |>.1 (h0 r hr)
      rw [hy _ (by have := mem_range.1 hr; omega)] at h1
      linarith
    have hcard : ((range w).image fun r => t (i + r)).card = w := by
      rw [Finset.card_image_of_injOn, card_range]
      intro r hr s hs' hrs
      simp only [Finset.coe_range, Set.mem_Iio] at hr hs'
      exact hd r hr s hs' hrs
    have h1 := Finset.card_le_card hroots
    have h2 := Multiset.toFinset_card_le (Q - P).roots
    have h3 := card_roots' (Q - P)
    have h4 := natDegree_sub_le Q P
    omega
  rw [hdat, hQP]

/-- C53: the filter is a fixed linear combination of the samples of the window, and the error is the
propagated error of samples with independent errors `DATA_ERR` -/
theorem savgol_linear (n : ℕ) (t : ℕ → ℝ) (WINDOW : Option ℤ) (ORDER DERIV : ℕ) (RATE : ℝ) :
    ∃ m : ℕ → ℕ → ℝ, ∀ (y : ℕ → ℝ) (e : ℝ) (N : ℕ) (data err time : ℕ → ℝ),
      savitzkyGolay n t y WINDOW ORDER DERIV RATE e = some (N, data, err, time) →
      ∀ i < N, data i = ∑ r ∈ range (sgLength WINDOW ORDER).toNat, m i r * y (i + r) ∧
        err i = Real.sqrt (∑ r ∈ range (sgLength WINDOW ORDER).toNat, (m i r * e) ^ 2) := by
  cases hw : sgWindow WINDOW ORDER with
  | none =>
    refine ⟨fun _ _ => 0, fun y e N data err time hs => ?_⟩
    unfold savitzkyGolay at hs; rw [hw] at hs; cases hs
  | some w =>
    obtain ⟨h1, h2, h3⟩ := (sgWindow_eq _ _ _).1 hw
    obtain ⟨h, rfl⟩ : ∃ h, w = 2 * h + 1 := ⟨w / 2, by omega⟩
    have e1 : (2 * h + 1 - 1) / 2 = h := by omega
    have e2 : (sgLength WINDOW ORDER).toNat = 2 * h + 1 := by omega
    refine ⟨sgCoeff h ORDER DERIV RATE t,
      fun y e N data err time hs i hi => ?_⟩
    unfold savitzkyGolay at hs
    rw [hw] at hs
    dsimp only at hs
    split at hs
    · cases hs
    simp only [Option.some.injEq, Prod.mk.injEq, e1] at hs
    obtain ⟨rfl, rfl, rfl, rfl⟩ := hs
    rw [e2]
    constructor
    · exact convolve_mid _ _ _ _
    · dsimp only
      by_cases he : e ≠ 0
      · rw [if_pos he]
        congr 1
        unfold convolveValid
        rw [← Finset.sum_range_reflect]
        refine Finset.sum_congr rfl fun j hj => ?_
        have := mem_range.1 hj
        dsimp only
        rw [show 2 * h - (2 * h + 1 - 1 - j) = j by omega, mul_pow]
      · rw [if_neg he]
        have : e = 0 := by simpa using he
        subst this
        simp

/-- the derivative of a parabola: a default window of order 2 on distinct times -/
example : ∃ N data err time, savitzkyGolay 7 (fun k => (k : ℝ)) (fun k => (k : ℝ) ^ 2) none 2 1 1 0 = some (N, data, err, time) := by
  cases h : savitzkyGolay 7 (fun k => (k : ℝ)) (fun k => (k : ℝ) ^ 2) none 2 1 1 0 with
  | none =>
    rw [savgol_none] at h
    have := sgLength_default 2
    unfold sgLength at h; norm_num at h
  | some p => obtain ⟨N, data, err, time⟩ := p; exact ⟨N, data, err, time, rfl⟩

end Verif.TimeSeries
