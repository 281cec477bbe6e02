import Verif.SpatialError.Spec
import Verif.Maps.Lemmas
import Verif.HarmIO.Data
import Verif.Harmonics.Flatten
import Mathlib.Algebra.BigOperators.Field

/-!
# Lemmas for the error maps
-/
namespace Verif.SpatialError
open Verif.Harmonics Verif.Legendre Verif.Maps Verif.TimeSeries Verif.Synthesis

/-! ## fits -/

theorem seasonal_lin (a c : ℝ) (b b' : Fin 6 → ℝ) (t : ℝ) :
    seasonalModel (fun i => a * b i + c * b' i) t = a * seasonalModel b t + c * seasonalModel b' t := by
  unfold seasonalModel; ring

/-- a window which determines the coefficients has one fit at most -/
theorem fit_unique (H : ℕ) (t d : ℕ → ℝ) (i : ℕ) (hw : WindowOk H t i) (b b' : Fin 6 → ℝ) (h : IsFit H t d i b)
    (h' : IsFit H t d i b') : b = b' := by
  have e : ∑ r ∈ Finset.range (2 * H + 1), (d (i + r) - seasonalModel (fun c => 1 / 2 * b c + 1 / 2 * b' c) (t (i + r))) ^ 2 =
      1 / 2 * ∑ r ∈ Finset.range (2 * H + 1), (d (i + r) - seasonalModel b (t (i + r))) ^ 2 +
      1 / 2 * ∑ r ∈ Finset.range (2 * H + 1), (d (i + r) - seasonalModel b' (t (i + r))) ^ 2 -
      1 / 4 * ∑ r ∈ Finset.range (2 * H + 1), (seasonalModel b (t (i + r)) - seasonalModel b' (t (i + r))) ^ 2 := by
    rw [Finset.mul_sum, Finset.mul_sum, Finset.mul_sum, ← Finset.sum_add_distrib, ← Finset.sum_sub_distrib]
    apply Finset.sum_congr rfl; intro r _
    rw [seasonal_lin]; ring
  have h1 := h (fun c => 1 / 2 * b c + 1 / 2 * b' c)
  have h2 := h' (fun c => 1 / 2 * b c + 1 / 2 * b' c)
  rw [e] at h1 h2
  have h0 : ∑ r ∈ Finset.range (2 * H + 1), (seasonalModel b (t (i + r)) - seasonalModel b' (t (i + r))) ^ 2 = 0 :=
    le_antisymm (by linarith) (Finset.sum_nonneg fun r _ => sq_nonneg _)
  have h3 := (Finset.sum_eq_zero_iff_of_nonneg (fun r _ => sq_nonneg _)).1 h0
  have := hw (fun c => 1 * b c + (-1) * b' c) fun r hr => by
    have := pow_eq_zero_iff (two_ne_zero) |>.1 (h3 r (Finset.mem_range.2 (by omega)))
    rw [seasonal_lin]; linarith
  funext c
  have := congrFun this c
  simp only [Pi.zero_apply] at this
  linarith

theorem fit_congr (H : ℕ) (t d d' : ℕ → ℝ) (i : ℕ) (b : Fin 6 → ℝ) (h : ∀ r ≤ 2 * H, d (i + r) = d' (i + r)) :
    IsFit H t d i b ↔ IsFit H t d' i b := by
  have : ∀ c : Fin 6 → ℝ, ∑ r ∈ Finset.range (2 * H + 1), (d (i + r) - seasonalModel c (t (i + r))) ^ 2 =
      ∑ r ∈ Finset.range (2 * H + 1), (d' (i + r) - seasonalModel c (t (i + r))) ^ 2 := by
    intro c
    apply Finset.sum_congr rfl; intro r hr
    rw [h r (by have := Finset.mem_range.1 hr; omega)]
  unfold IsFit
  simp only [this]

/-- scaling a series and adding a trend and cycles changes its fits accordingly -/
theorem fit_affine (H : ℕ) (t d : ℕ → ℝ) (i : ℕ) (k : ℝ) (hk : k ≠ 0) (c b : Fin 6 → ℝ)
    (h : IsFit H t (fun j => k * d j + seasonalModel c (t j)) i b) :
    IsFit H t d i (fun x => 1 / k * b x + (-(1 / k)) * c x) := by
  intro b'
  have h1 := h (fun x => k * b' x + 1 * c x)
  have e1 : ∑ r ∈ Finset.range (2 * H + 1), (k * d (i + r) + seasonalModel c (t (i + r)) -
        seasonalModel (fun x => k * b' x + 1 * c x) (t (i + r))) ^ 2 =
      k ^ 2 * ∑ r ∈ Finset.range (2 * H + 1), (d (i + r) - seasonalModel b' (t (i + r))) ^ 2 := by
    rw [Finset.mul_sum]
    apply Finset.sum_congr rfl; intro r _
    rw [seasonal_lin]; ring
  have e2 : ∑ r ∈ Finset.range (2 * H + 1), (k * d (i + r) + seasonalModel c (t (i + r)) - seasonalModel b (t (i + r))) ^ 2 =
      k ^ 2 * ∑ r ∈ Finset.range (2 * H + 1),
        (d (i + r) - seasonalModel (fun x => 1 / k * b x + (-(1 / k)) * c x) (t (i + r))) ^ 2 := by
    rw [Finset.mul_sum]
    apply Finset.sum_congr rfl; intro r _
    rw [seasonal_lin]; field_simp; ring
  simp only at h1
  rw [e1, e2] at h1
  exact le_of_mul_le_mul_left h1 (by positivity)

/-! ## noise -/

/-- every window determines its coefficients -/
def Windows (n H : ℕ) (t : ℕ → ℝ) : Prop := ∀ i < n - 2 * H, WindowOk H t i

theorem smoothed_some (erf : ℝ → ℝ) (tppf : ℝ → ℝ → ℝ) (n H : ℕ) (hn : 2 * H < n) (hn1 : n ≠ 1) (t d : ℕ → ℝ)
    (hw : Windows n H t) : ∃ L, smoothLoess erf tppf n H t d 0 {} = some L := by
  cases h : smoothLoess erf tppf n H t d 0 {} with
  | some L => exact ⟨L, rfl⟩
  | none =>
    rw [loess_none] at h
    rcases h with h | h | ⟨i, h1, h2⟩
    · omega
    · omega
    · exact absurd (hw i (by omega)) h2

/-- the fits exist -/
theorem fits_exist (n H : ℕ) (hn : 2 * H < n) (hn1 : n ≠ 1) (t d : ℕ → ℝ) (hw : Windows n H t) :
    ∃ b : ℕ → Fin 6 → ℝ, ∀ i < n - 2 * H, IsFit H t d i (b i) := by
  obtain ⟨L, h⟩ := smoothed_some (fun _ => 0) (fun _ _ => 0) n H hn hn1 t d hw
  obtain ⟨hN, hs⟩ := loess_spec h
  have : ∀ i, ∃ b : Fin 6 → ℝ, i < n - 2 * H → IsFit H t d i b := by
    intro i
    by_cases hi : i < n - 2 * H
    · obtain ⟨-, -, -, -, -, -, b, hb, -⟩ := hs i (by omega)
      exact ⟨b, fun _ => hb⟩
    · exact ⟨0, fun h => absurd h hi⟩
  choose b hb using this
  exact ⟨b, hb⟩

theorem rms_noise {erf : ℝ → ℝ} {tppf : ℝ → ℝ → ℝ} {n H : ℕ} {t d : ℕ → ℝ} {L : Loess} (hn : 2 * H < n)
    (h : smoothLoess erf tppf n H t d 0 {} = some L) : IsNoise n H t d (rms L) := by
  have hne : ¬ smoothLoess erf tppf n H t d 0 {} = none := by rw [h]; simp
  rw [loess_none] at hne
  have hok : Windows n H t := fun i hi => by
    by_contra hc; exact hne (Or.inr (Or.inr ⟨i, by omega, hc⟩))
  obtain ⟨hN, hs⟩ := loess_spec h
  refine ⟨Real.sqrt_nonneg _, ?_⟩
  intro b hb
  have hN' : n - 2 * H = L.N := by omega
  have hpos : (0 : ℝ) < L.N := by
    have : 0 < L.N := by omega
    exact_mod_cast this
  unfold rms
  rw [list_sum_range, Real.sq_sqrt (div_nonneg (Finset.sum_nonneg fun i _ => sq_nonneg _) hpos.le), hN',
    div_mul_cancel₀ _ hpos.ne']
  apply Finset.sum_congr rfl
  intro i hi
  have hi := Finset.mem_range.1 hi
  obtain ⟨h1, h2, h3, h4, -, -, b', hls, h5, h6, h7, h8⟩ := hs i hi
  have hbb : b' = b i := fit_unique H t d i (hok i (by omega)) b' (b i) hls (hb i (by omega))
  subst hbb
  congr 1
  have : L.noise i = L.reduce i - L.data i - L.seasonal i := by linarith
  rw [this, h2, h4, h5, h7, h8, h1]
  unfold seasonalModel
  ring

theorem noise_unique (n H : ℕ) (hn : 2 * H < n) (hn1 : n ≠ 1) (t d : ℕ → ℝ) (hw : Windows n H t) (s s' : ℝ)
    (h : IsNoise n H t d s) (h' : IsNoise n H t d s') : s = s' := by
  obtain ⟨b, hb⟩ := fits_exist n H hn hn1 t d hw
  have e := (h.2 b hb).trans (h'.2 b hb).symm
  have hpos : (0 : ℝ) < (n - 2 * H : ℕ) := by
    have : 0 < n - 2 * H := by omega
    exact_mod_cast this
  have e2 := mul_right_cancel₀ hpos.ne' e
  exact (sq_eq_sq₀ h.1 h'.1).1 e2

theorem noise_congr (n H : ℕ) (t d d' : ℕ → ℝ) (s : ℝ) (h : ∀ j < n, d j = d' j) (hn : IsNoise n H t d s) :
    IsNoise n H t d' s := by
  refine ⟨hn.1, fun b hb => ?_⟩
  rw [hn.2 b fun i hi => (fit_congr H t d d' i (b i) fun r hr => h _ (by omega)).2 (hb i hi)]
  apply Finset.sum_congr rfl; intro i hi
  rw [h _ (by have := Finset.mem_range.1 hi; omega)]

/-- the error of a scaled series with a trend and cycles added -/
theorem noise_affine (n H : ℕ) (t d : ℕ → ℝ) (s k : ℝ) (hk : k ≠ 0) (c : Fin 6 → ℝ) (h : IsNoise n H t d s) :
    IsNoise n H t (fun j => k * d j + seasonalModel c (t j)) (|k| * s) := by
  refine ⟨mul_nonneg (abs_nonneg _) h.1, fun b hb => ?_⟩
  have := h.2 _ fun i hi => fit_affine H t d i k hk c (b i) (hb i hi)
  rw [mul_pow, sq_abs, mul_assoc, this, Finset.mul_sum]
  apply Finset.sum_congr rfl; intro i _
  rw [seasonal_lin]; field_simp; ring

/-! ## the grid -/

theorem order_ne_zero (o : Maps.Opts) (hL : o.LMAX ≠ 0) : o.order ≠ 0 := by
  unfold Maps.Opts.order; split_ifs <;> assumption

theorem errorGrid_value (eps scalef : ℝ) (hs : scalef ≠ 0) (o : Maps.Opts) (hL : 2 ≤ o.LMAX) (hM : o.order ≤ o.LMAX)
    (dfactor wt : ℕ → ℝ) (delta : Harm ℝ) (h1 : delta.lmax = o.LMAX) (h2 : delta.mmax = o.order) (h3 : delta.nt = none)
    (h4 : delta.WF) (k : ℝ) (lons lats : List ℚ) (C S : ℕ → ℕ → ℝ)
    (hc : ∀ l m, m ≤ l → l ≤ o.LMAX → m ≤ o.order → delta.clm l m 0 = C l m ∧ delta.slm l m 0 = S l m) :
    errorGrid eps scalef o (factorList o.LMAX dfactor wt) delta k lons lats =
      .ok (errorMap eps o (fun l => dfactor l * wt l) C S k lons lats) := by
  obtain ⟨t1, t2, t3, t4, t5, t6⟩ := truncate_spec delta o.LMAX o.LMIN o.order (order_ne_zero o (by omega))
  obtain ⟨y, y1, y2, y3, y4, y5, y6, y7⟩ := convolve_spec (truncate delta (some o.LMAX) o.LMIN (some o.order))
    ⟨by rw [t4, t3]; exact h4.1, by rw [t5, t3]; exact h4.2⟩ (factorList o.LMAX dfactor wt) (by rw [t1]; simp [factorList])
  unfold errorGrid
  rw [if_neg (by omega), if_neg (by omega), y1]
  simp only
  congr 1
  unfold errorMap
  apply List.map_congr_left; intro lat _
  apply List.map_congr_left; intro lon _
  obtain ⟨p, hp, hv⟩ := usePLM_any eps scalef hs o.LMAX hL (lat : ℝ)
  rw [hp, Option.getD_some]
  congr 1
  have val : ∀ l ≤ o.LMAX, ∀ m ≤ o.order, m ≤ l →
      y.clm l m 0 = (if o.LMIN ≤ l then C l m * (dfactor l * wt l) else 0) ∧
      y.slm l m 0 = (if o.LMIN ≤ l then S l m * (dfactor l * wt l) else 0) := by
    intro l hl m hm hml
    obtain ⟨q1, q2⟩ := y7 l m 0 (by rw [t1]; exact hl) (by rw [t3, h3]; simp)
    obtain ⟨r1, r2⟩ := t6 l m 0
    obtain ⟨c1, c2⟩ := hc l m hml hl hm
    rw [factorList_get] at q1 q2
    rw [q1, q2, r1, r2, c1, c2]
    by_cases hmin : o.LMIN ≤ l
    · rw [if_pos ⟨hmin, ⟨hl, by omega⟩, hm, by omega⟩, if_pos hmin, if_pos ⟨hmin, ⟨hl, by omega⟩, hm, by omega⟩, if_pos hmin]
      exact ⟨rfl, rfl⟩
    · rw [if_neg (fun h => hmin h.1), if_neg hmin, if_neg (fun h => hmin h.1), if_neg hmin]
      simp
  simp only [list_sum_range, scale, power]
  unfold variance
  rw [← Finset.sum_add_distrib, Finset.sum_div]
  have step : ∀ m ∈ Finset.range (o.order + 1),
      Real.cos (m * ((lon : ℝ) * Real.pi / 180)) ^ 2 * ∑ l ∈ Finset.range (o.LMAX + 1), p l m ^ 2 * (1 / k * y.clm l m 0 ^ 2) +
      Real.sin (m * ((lon : ℝ) * Real.pi / 180)) ^ 2 * ∑ l ∈ Finset.range (o.LMAX + 1), p l m ^ 2 * (1 / k * y.slm l m 0 ^ 2) =
      ∑ l ∈ Finset.range (o.LMAX + 1), if o.LMIN ≤ l ∧ m ≤ l then
        ((dfactor l * wt l) * p l m) ^ 2 * ((C l m * Real.cos (m * ((lon : ℝ) * Real.pi / 180))) ^ 2 +
          (S l m * Real.sin (m * ((lon : ℝ) * Real.pi / 180))) ^ 2) / k else 0 := by
    intro m hm
    have hm := Finset.mem_range.1 hm
    rw [Finset.mul_sum, Finset.mul_sum, ← Finset.sum_add_distrib]
    apply Finset.sum_congr rfl; intro l hl
    have hl := Finset.mem_range.1 hl
    by_cases hml : m ≤ l
    · obtain ⟨v1, v2⟩ := val l (by omega) m (by omega) hml
      rw [v1, v2]
      by_cases hmin : o.LMIN ≤ l
      · rw [if_pos hmin, if_pos hmin, if_pos ⟨hmin, hml⟩]; ring
      · rw [if_neg hmin, if_neg hmin, if_neg fun h => hmin h.1]; ring
    · rw [if_neg fun h => hml h.2, hv l (by omega) m, Plm_zero_of_lt l m (by omega)]; ring
  rw [Finset.sum_congr rfl step, Finset.sum_comm]
  rw [← Finset.sum_subset (s₁ := Finset.Icc o.LMIN o.LMAX) (s₂ := Finset.range (o.LMAX + 1))]
  · apply Finset.sum_congr rfl; intro l hl
    have hl := Finset.mem_Icc.1 hl
    rw [Finset.sum_div, ← Finset.sum_subset (s₁ := Finset.range (min l o.order + 1)) (s₂ := Finset.range (o.order + 1))]
    · apply Finset.sum_congr rfl; intro m hm
      have hm := Finset.mem_range.1 hm
      rw [if_pos ⟨hl.1, by omega⟩, hv l hl.2]
    · intro m hm
      have := Finset.mem_range.1 hm
      exact Finset.mem_range.2 (by omega)
    · intro m hm hm'
      have h5 := Finset.mem_range.1 hm
      have h6 : ¬ m < min l o.order + 1 := fun h => hm' (Finset.mem_range.2 h)
      rw [if_neg (by omega)]
  · intro l hl
    have := Finset.mem_Icc.1 hl
    exact Finset.mem_range.2 (by omega)
  · intro l hl hl'
    have h5 := Finset.mem_range.1 hl
    have h6 : ¬ (o.LMIN ≤ l ∧ l ≤ o.LMAX) := fun h => hl' (Finset.mem_Icc.2 h)
    apply Finset.sum_eq_zero; intro m _
    rw [if_neg (by omega)]

/-! ## errors of the coefficients -/

theorem deltaField_value (erf : ℝ → ℝ) (tppf : ℝ → ℝ → ℝ) (H L M n : ℕ) (hH : 1 ≤ H) (hn : 2 * H < n) (a : Harm ℝ) (time : List ℚ)
    (month : List ℤ) (ht : time.length = n) (v : Bool → ℕ → ℕ → ℕ → ℝ) (A : Holds a L M n time month v)
    (hw : Windows n H (times a)) :
    ∃ d, deltaField erf tppf H L M a = .ok d ∧ d.lmax = L ∧ d.mmax = M ∧ d.nt = none ∧
      d.time = [((List.range (n - 2 * H)).map fun i : ℕ => time.getD (i + H) 0).sum / ((n - 2 * H : ℕ) : ℚ)] ∧
      d.month = [((n - 2 * H : ℕ) : ℤ)] ∧
      ∀ l m, m ≤ l → l ≤ L → m ≤ M → IsNoise n H (times a) (fun t => v false t l m) (d.clm l m 0) ∧
        IsNoise n H (times a) (fun t => v true t l m) (d.slm l m 0) := by
  have hlen : a.time.length = n := by rw [A.time]; exact ht
  have some_ : ∀ d : ℕ → ℝ, ∃ L', smoothed erf tppf H a d = some L' := by
    intro d
    unfold smoothed
    rw [hlen]
    exact smoothed_some erf tppf n H hn (by omega) _ d hw
  unfold deltaField
  rw [if_neg, if_neg (by omega)]
  · refine ⟨_, rfl, rfl, rfl, rfl, ?_, ?_, ?_⟩
    · rw [hlen, A.time]
    · rw [hlen]
    · intro l m h1 h2 h3
      have hmem := (mem_lmPairs L M l m).2 ⟨h1, h2, h3⟩
      have nd : ((lmPairs L M).map (id : ℕ × ℕ → ℕ × ℕ)).Nodup := by rw [List.map_id]; exact lmPairs_nodup L M
      simp only
      have r1 := rowLoop_nodup (lmPairs L M) id (fun p : ℕ × ℕ => ((smoothed erf tppf H a (a.clm p.1 p.2)).map rms).getD 0)
        (fun _ => (0 : ℝ)) nd (l, m) hmem
      have r2 := rowLoop_nodup (lmPairs L M) id (fun p : ℕ × ℕ => ((smoothed erf tppf H a (a.slm p.1 p.2)).map rms).getD 0)
        (fun _ => (0 : ℝ)) nd (l, m) hmem
      simp only [id] at r1 r2
      obtain ⟨L1, e1⟩ := some_ (a.clm l m)
      obtain ⟨L2, e2⟩ := some_ (a.slm l m)
      have q1 := e1
      have q2 := e2
      unfold smoothed at q1 q2
      rw [hlen] at q1 q2
      constructor
      · show IsNoise _ _ _ _ (rowLoop (lmPairs L M) id _ _ (l, m))
        rw [show rowLoop (lmPairs L M) id (fun p : ℕ × ℕ => ((smoothed erf tppf H a (a.clm p.1 p.2)).map rms).getD 0)
          (fun _ => (0 : ℝ)) (l, m) = _ from r1, e1]
        exact noise_congr n H _ _ _ _ (fun j hj => A.vals false j l m hj h1 h2 h3) (rms_noise hn q1)
      · show IsNoise _ _ _ _ (rowLoop (lmPairs L M) id _ _ (l, m))
        rw [show rowLoop (lmPairs L M) id (fun p : ℕ × ℕ => ((smoothed erf tppf H a (a.slm p.1 p.2)).map rms).getD 0)
          (fun _ => (0 : ℝ)) (l, m) = _ from r2, e2]
        exact noise_congr n H _ _ _ _ (fun j hj => A.vals true j l m hj h1 h2 h3) (rms_noise hn q2)
  · rintro ⟨p, -, hp⟩
    obtain ⟨L1, e1⟩ := some_ (a.clm p.1 p.2)
    obtain ⟨L2, e2⟩ := some_ (a.slm p.1 p.2)
    rw [e1, e2] at hp
    simp at hp

end Verif.SpatialError
