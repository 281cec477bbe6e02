import Verif.SpatialError.Props

/-!
# C92: further properties of the error maps
-/
namespace Verif.SpatialError
open Verif.Harmonics Verif.Legendre Verif.Maps Verif.TimeSeries Verif.Synthesis

/-! ## the map -/

theorem errorMap_congr (eps : ℝ) (o : Maps.Opts) (f : ℕ → ℝ) (C S C' S' : ℕ → ℕ → ℝ) (k : ℝ) (lons lats : List ℚ)
    (h : ∀ l m, m ≤ l → l ≤ o.LMAX → m ≤ o.order → C l m = C' l m ∧ S l m = S' l m) :
    errorMap eps o f C S k lons lats = errorMap eps o f C' S' k lons lats := by
  unfold errorMap variance
  apply List.map_congr_left; intro lat _
  apply List.map_congr_left; intro lon _
  congr 2
  apply Finset.sum_congr rfl; intro l hl
  apply Finset.sum_congr rfl; intro m hm
  have hl := Finset.mem_Icc.1 hl
  have hm := Finset.mem_range.1 hm
  obtain ⟨e1, e2⟩ := h l m (by omega) hl.2 (by omega)
  rw [e1, e2]

/-- C92: the number of points enters as the inverse square root -/
theorem errorMap_count (eps : ℝ) (o : Maps.Opts) (f : ℕ → ℝ) (C S : ℕ → ℕ → ℝ) (k k' : ℝ) (hk : 0 < k) (hk' : 0 < k')
    (lons lats : List ℚ) :
    errorMap eps o f C S k' lons lats = (errorMap eps o f C S k lons lats).map fun row => row.map fun x => Real.sqrt (k / k') * x := by
  unfold errorMap
  rw [List.map_map]
  apply List.map_congr_left; intro lat _
  simp only [Function.comp]
  rw [List.map_map]
  apply List.map_congr_left; intro lon _
  simp only [Function.comp]
  rw [← Real.sqrt_mul (by positivity)]
  congr 1
  field_simp

/-- C92: errors multiplied by a number give the map multiplied by it -/
theorem errorMap_scale (eps : ℝ) (o : Maps.Opts) (f : ℕ → ℝ) (C S : ℕ → ℕ → ℝ) (k c : ℝ) (hc : 0 ≤ c) (lons lats : List ℚ) :
    errorMap eps o f (fun l m => c * C l m) (fun l m => c * S l m) k lons lats =
      (errorMap eps o f C S k lons lats).map fun row => row.map fun x => c * x := by
  unfold errorMap
  rw [List.map_map]
  apply List.map_congr_left; intro lat _
  simp only [Function.comp]
  rw [List.map_map]
  apply List.map_congr_left; intro lon _
  simp only [Function.comp]
  have : ∀ x u phi, variance o.LMIN o.LMAX o.order f (fun l m => c * C l m) (fun l m => c * S l m) x u phi =
      c ^ 2 * variance o.LMIN o.LMAX o.order f C S x u phi := by
    intro x u phi
    unfold variance
    simp only [Finset.mul_sum]
    refine Finset.sum_congr rfl fun l _ => Finset.sum_congr rfl fun m _ => ?_
    ring
  rw [this, mul_div_assoc, Real.sqrt_mul (sq_nonneg c), Real.sqrt_sq hc]

/-- C92: smaller weights of the degrees (stronger smoothing) never give a larger error -/
theorem variance_mono (LMIN LMAX M : ℕ) (f g : ℕ → ℝ) (h : ∀ l, LMIN ≤ l → l ≤ LMAX → |f l| ≤ |g l|) (C S : ℕ → ℕ → ℝ) (x u phi k : ℝ)
    (hk : 0 < k) :
    Real.sqrt (variance LMIN LMAX M f C S x u phi / k) ≤ Real.sqrt (variance LMIN LMAX M g C S x u phi / k) := by
  apply Real.sqrt_le_sqrt
  apply div_le_div_of_nonneg_right _ hk.le
  unfold variance
  refine Finset.sum_le_sum fun l hl => Finset.sum_le_sum fun m _ => ?_
  have hl := Finset.mem_Icc.1 hl
  apply mul_le_mul_of_nonneg_right _ (by positivity)
  rw [mul_pow, mul_pow]
  apply mul_le_mul_of_nonneg_right _ (sq_nonneg _)
  exact sq_le_sq.2 (h l hl.1 hl.2)

/-- C92: where cosine and sine coefficients have the same errors, the error of the map depends on latitude only -/
theorem variance_zonal (LMIN LMAX M : ℕ) (f : ℕ → ℝ) (C S : ℕ → ℕ → ℝ) (hCS : ∀ l m, 1 ≤ m → S l m ^ 2 = C l m ^ 2) (x u phi psi : ℝ) :
    variance LMIN LMAX M f C S x u phi = variance LMIN LMAX M f C S x u psi := by
  unfold variance
  refine Finset.sum_congr rfl fun l _ => Finset.sum_congr rfl fun m _ => ?_
  congr 1
  rcases Nat.eq_zero_or_pos m with rfl | hm
  · simp
  · rw [mul_pow, mul_pow, mul_pow, mul_pow, hCS l m hm, ← mul_add, ← mul_add, Real.cos_sq_add_sin_sq, Real.cos_sq_add_sin_sq]

/-! ## the months -/

theorem monthly_window (a : ℝ) (t : ℕ → ℝ) (i : ℕ) (ht : ∀ r ≤ 12, t (i + r) = a + r / 12) : WindowOk 6 t i := by
  intro b hb
  have ev : ∀ r : ℕ, r ≤ 12 → seasonalModel b (a + (r : ℝ) / 12) = 0 := fun r hr => by rw [← ht r hr]; exact hb r (by omega)
  have e0 := ev 0 (by omega)
  have e1 := ev 1 (by omega)
  have e3 := ev 3 (by omega)
  have e6 := ev 6 (by omega)
  have e7 := ev 7 (by omega)
  have e9 := ev 9 (by omega)
  have e12 := ev 12 (by omega)
  unfold seasonalModel at e0 e1 e3 e6 e7 e9 e12
  push_cast at e0 e1 e3 e6 e7 e9 e12
  set θ := 2 * Real.pi * a with hθ
  rw [show 2 * Real.pi * (a + 0 / 12) = θ by rw [hθ]; ring, show 4 * Real.pi * (a + 0 / 12) = 2 * θ by rw [hθ]; ring] at e0
  rw [show 2 * Real.pi * (a + 3 / 12) = θ + Real.pi / 2 by rw [hθ]; ring,
    show 4 * Real.pi * (a + 3 / 12) = 2 * θ + Real.pi by rw [hθ]; ring, Real.sin_add_pi_div_two, Real.cos_add_pi_div_two,
    Real.sin_add_pi, Real.cos_add_pi] at e3
  rw [show 2 * Real.pi * (a + 6 / 12) = θ + Real.pi by rw [hθ]; ring,
    show 4 * Real.pi * (a + 6 / 12) = 2 * θ + 2 * Real.pi by rw [hθ]; ring, Real.sin_add_two_pi, Real.cos_add_two_pi,
    Real.sin_add_pi, Real.cos_add_pi] at e6
  rw [show 2 * Real.pi * (a + 9 / 12) = (θ + Real.pi / 2) + Real.pi by rw [hθ]; ring,
    show 4 * Real.pi * (a + 9 / 12) = (2 * θ + Real.pi) + 2 * Real.pi by rw [hθ]; ring, Real.sin_add_two_pi, Real.cos_add_two_pi,
    Real.sin_add_pi, Real.cos_add_pi, Real.sin_add_pi, Real.cos_add_pi, Real.sin_add_pi_div_two, Real.cos_add_pi_div_two] at e9
  rw [show 2 * Real.pi * (a + 12 / 12) = θ + 2 * Real.pi by rw [hθ]; ring,
    show 4 * Real.pi * (a + 12 / 12) = (2 * θ + 2 * Real.pi) + 2 * Real.pi by rw [hθ]; ring, Real.sin_add_two_pi,
    Real.cos_add_two_pi, Real.sin_add_two_pi, Real.cos_add_two_pi, Real.sin_add_two_pi, Real.cos_add_two_pi] at e12
  rw [show 2 * Real.pi * (a + 1 / 12) = θ + Real.pi / 6 by rw [hθ]; ring,
    show 4 * Real.pi * (a + 1 / 12) = 2 * θ + Real.pi / 3 by rw [hθ]; ring] at e1
  rw [show 2 * Real.pi * (a + 7 / 12) = (θ + Real.pi / 6) + Real.pi by rw [hθ]; ring,
    show 4 * Real.pi * (a + 7 / 12) = (2 * θ + Real.pi / 3) + 2 * Real.pi by rw [hθ]; ring, Real.sin_add_two_pi, Real.cos_add_two_pi,
    Real.sin_add_pi, Real.cos_add_pi] at e7
  have b1 : b 1 = 0 := by linear_combination e12 - e0
  rw [b1] at e0 e1 e3 e6 e7 e9 e12
  have p1 : b 2 * Real.sin θ + b 3 * Real.cos θ = 0 := by linear_combination 1 / 2 * (e0 - e6)
  have p2 : b 2 * Real.cos θ - b 3 * Real.sin θ = 0 := by linear_combination 1 / 2 * (e3 - e9)
  have one := Real.sin_sq_add_cos_sq θ
  have b2 : b 2 = 0 := by linear_combination (Real.sin θ) * p1 + (Real.cos θ) * p2 - b 2 * one
  have b3 : b 3 = 0 := by linear_combination (Real.cos θ) * p1 - (Real.sin θ) * p2 - b 3 * one
  rw [b2, b3] at e0 e1 e3 e6 e7 e9
  have b0 : b 0 = 0 := by linear_combination 1 / 2 * (e0 + e3)
  rw [b0] at e0 e1
  have q1 : b 4 * Real.sin (2 * θ) + b 5 * Real.cos (2 * θ) = 0 := by linear_combination e0
  have q2 : b 4 * Real.cos (2 * θ) - b 5 * Real.sin (2 * θ) = 0 := by
    have h := e1
    rw [Real.sin_add (2 * θ), Real.cos_add (2 * θ), Real.cos_pi_div_three, Real.sin_pi_div_three] at h
    have h3 : Real.sqrt 3 * (b 4 * Real.cos (2 * θ) - b 5 * Real.sin (2 * θ)) = 0 := by
      linear_combination 2 * h - q1
    rcases mul_eq_zero.1 h3 with h4 | h4
    · exact absurd h4 (by positivity)
    · exact h4
  have two := Real.sin_sq_add_cos_sq (2 * θ)
  have b4 : b 4 = 0 := by linear_combination (Real.sin (2 * θ)) * q1 + (Real.cos (2 * θ)) * q2 - b 4 * two
  have b5 : b 5 = 0 := by linear_combination (Real.cos (2 * θ)) * q1 - (Real.sin (2 * θ)) * q2 - b 5 * two
  funext c
  fin_cases c <;> simp_all

/-- C92: for months at equal steps of a twelfth of a year every window of thirteen months determines its fit, so the windows of a
gapless monthly series of any length give no exception -/
theorem monthly_windows (h : Harm ℝ) (n : ℕ) (a : ℚ) (ht : ∀ k < n, h.time.getD k 0 = a + (k : ℚ) / 12) :
    ∀ i < n - 2 * 6, WindowOk 6 (times h) i := by
  intro i hi
  apply monthly_window (((a + (i : ℚ) / 12 : ℚ)) : ℝ)
  intro r hr
  unfold times
  rw [ht _ (by omega)]
  push_cast; ring

/-- C92: fewer months than two half windows: the program always ends with an exception unless the errors are in a file.  With
exactly two half windows too, since there is no point to divide by -/
theorem few_months_fail (eps scalef cutoff : ℝ) (erf : ℝ → ℝ) (tppf : ℝ → ℝ → ℝ) (fmt : ℝ → ℝ)
    (title reference : String) (r : Run) (grace : Harm ℝ) (n : ℕ) (D : Data r.o grace n) (meanFile : Option (Harm ℝ))
    (hmf : ∀ f, meanFile = some f → f.nt = none) (hn : n ≤ 2 * halfWidth r.PROC r.DREL) (dfactor : ℕ → ℝ) (lons lats : List ℚ)
    (fs : List Char → Option CacheFile) (hfs : fs (cacheName r grace) = none) :
    ∃ e, spatialError eps scalef cutoff erf tppf fmt title reference r grace meanFile dfactor lons lats fs = .error e := by
  have ht : grace.time.length = n := by rw [D.wf.1, D.nt]; rfl
  unfold spatialError
  cases weights cutoff r.o.RAD r.o.LMAX with
  | none => exact ⟨_, rfl⟩
  | some wt =>
    simp only
    obtain ⟨a, a1, a2, A⟩ := anomaly_holds r.o grace n D meanFile hmf
    rw [a1]; simp only [lift]
    by_cases hL : r.o.LMAX = 0
    · unfold filtered
      cases hd : r.o.DESTRIPE with
      | true =>
        unfold destripeHarm
        rw [if_pos rfl, if_pos (by rw [A.lmax]; exact hL)]
        exact ⟨_, rfl⟩
      | false =>
        simp only [Bool.false_eq_true, if_false]
        cases a.month.head? with
        | none => exact ⟨_, rfl⟩
        | some m0 =>
          cases a.month.getLast? with
          | none => exact ⟨_, rfl⟩
          | some m1 =>
            simp only
            cases deltaStep erf tppf fmt title reference r fs (deltaName r m0.toNat m1.toNat) a with
            | error e => exact ⟨_, rfl⟩
            | ok x =>
              obtain ⟨fs', d, k⟩ := x
              simp only
              unfold errorGrid
              rw [if_pos (by omega)]
              exact ⟨_, rfl⟩
    · obtain ⟨g, g1, g2, G⟩ := filtered_holds r.o hL a n _ _ _ A
      rw [g1]; simp only
      rw [G.month]
      cases e0 : grace.month.head? with
      | none => exact ⟨_, rfl⟩
      | some m0 =>
        cases e1 : grace.month.getLast? with
        | none => exact ⟨_, rfl⟩
        | some m1 =>
          simp only
          have hnm : deltaName r m0.toNat m1.toNat = cacheName r grace := by
            unfold cacheName
            rw [List.headD_eq_head?_getD, List.getLastD_eq_getLast?, e0, e1]; rfl
          rw [hnm]
          unfold deltaStep
          rw [hfs]; simp only
          have : ∃ e, deltaField erf tppf (halfWidth r.PROC r.DREL) r.o.LMAX r.o.order g = .error e := by
            unfold deltaField
            split
            · exact ⟨_, rfl⟩
            · rw [if_pos (by rw [G.time, ht]; omega)]; exact ⟨_, rfl⟩
          obtain ⟨e, he⟩ := this
          rw [he]
          exact ⟨_, rfl⟩

end Verif.SpatialError
