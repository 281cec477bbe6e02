import Verif.TimeSeries.SmoothModel
import Verif.TimeSeries.Piecewise
import Mathlib.LinearAlgebra.FiniteDimensional.Lemmas
import Mathlib.Tactic.FieldSimp

/-!
# C52: `smooth`
-/
namespace Verif.TimeSeries
open Matrix Finset

/-! ## Moving average -/

/-- mean of the `L` values from index `k` -/
noncomputable def runMean (d : ℕ → ℝ) (L k : ℕ) : ℝ := (∑ j ∈ range L, d (k + j)) / L

private theorem ico_shift (d : ℕ → ℝ) (k m : ℕ) :
    ∑ j ∈ Finset.Ico (k + 1) (k + (m + 1)), d j = ∑ j ∈ range m, d (k + 1 + j) := by
  rw [Finset.sum_Ico_eq_sum_range]
  exact Finset.sum_congr (by congr 1; omega) fun _ _ => rfl

/-- C52: the moving average returns `n - 2H` values at the times without the half windows at both ends; each is
the average of the means of the two runs of `2H` samples starting at `k` and `k+1` -/
theorem moving_spec {n H : ℕ} {t d : ℕ → ℝ} {N : ℕ} {tout s : ℕ → ℝ} (hH : 1 ≤ H)
    (h : smoothMoving n H t d = some (N, tout, s)) :
    N + 2 * H = n ∧ ∀ k, tout k = t (k + H) ∧ s k = (runMean d (2 * H) k + runMean d (2 * H) (k + 1)) / 2 := by
  unfold smoothMoving at h
  split at h
  · cases h
  · rename_i hn
    simp only [Option.some.injEq, Prod.mk.injEq] at h
    obtain ⟨rfl, rfl, rfl⟩ := h
    refine ⟨by omega, fun k => ⟨rfl, ?_⟩⟩
    obtain ⟨m, rfl⟩ : ∃ m, H = m + 1 := ⟨H - 1, by omega⟩
    unfold runMean
    have e : 2 * (m + 1) = (2 * m + 1) + 1 := by ring
    rw [e]
    dsimp only
    rw [ico_shift]
    rw [Finset.sum_range_succ' (fun j => d (k + j)), Finset.sum_range_succ (fun j => d (k + 1 + j)) (2 * m + 1)]
    have e1 : ∑ j ∈ range (2 * m + 1), d (k + (j + 1)) = ∑ j ∈ range (2 * m + 1), d (k + 1 + j) :=
      Finset.sum_congr rfl fun j _ => by congr 1; omega
    have e2 : k + 1 + (2 * m + 1) = k + (2 * m + 1 + 1) := by omega
    rw [e1, e2, Nat.add_zero]
    push_cast
    rw [show (2 * (m : ℝ) + 1 + 1) = 2 * (m + 1) by ring]
    have : ((m : ℝ) + 1) ≠ 0 := by positivity
    field_simp
    ring_nf

/-- it raises exactly for a single sample or fewer than `2H` samples -/
theorem moving_none (n H : ℕ) (t d : ℕ → ℝ) : smoothMoving n H t d = none ↔ n = 1 ∨ n < 2 * H := by
  unfold smoothMoving; split <;> simp_all

/-- C52: data linear in the sample number (constants among them) are reproduced -/
theorem moving_linear {n H : ℕ} {t d : ℕ → ℝ} {N : ℕ} {tout s : ℕ → ℝ} (hH : 1 ≤ H)
    (h : smoothMoving n H t d = some (N, tout, s)) (a b : ℝ) (hd : ∀ k < n, d k = a + b * k) :
    ∀ k < N, s k = d (k + H) := by
  intro k hk
  obtain ⟨h1, h2⟩ := moving_spec hH h
  rw [(h2 k).2]
  have key : ∀ (L k : ℕ), 1 ≤ L → k + L ≤ n → runMean d L k = a + b * (k + ((L : ℝ) - 1) / 2) := by
    intro L k hL hkL
    unfold runMean
    have hs : ∀ L, k + L ≤ n → ∑ j ∈ range L, d (k + j) = L * a + b * (L * k + (L : ℝ) * (L - 1) / 2) := by
      intro L
      induction L with
      | zero => intro _; simp
      | succ L ih =>
        intro hL
        rw [Finset.sum_range_succ, ih (by omega), hd _ (by omega)]
        push_cast; ring
    rw [hs L hkL]
    have : (L : ℝ) ≠ 0 := by positivity
    field_simp
  rw [key _ _ (by omega) (by omega), key _ _ (by omega) (by omega), hd _ (by omega)]
  push_cast; ring

/-- C52: samples linear in time at equally spaced times are reproduced -/
theorem moving_linear_time {n H : ℕ} {t d : ℕ → ℝ} {N : ℕ} {tout s : ℕ → ℝ} (hH : 1 ≤ H)
    (h : smoothMoving n H t d = some (N, tout, s)) (t0 dt a b : ℝ) (ht : ∀ k < n, t k = t0 + dt * k)
    (hd : ∀ k < n, d k = a + b * t k) : ∀ k < N, s k = a + b * tout k := by
  intro k hk
  obtain ⟨h1, h2⟩ := moving_spec hH h
  rw [(h2 k).1, moving_linear hH h (a + b * t0) (b * dt) (fun k hk => by rw [hd k hk, ht k hk]; ring) k hk,
    hd _ (by omega)]

/-- C52: a signal of period `2H` samples is removed: every value is its mean over one period -/
theorem moving_periodic {n H : ℕ} {t d : ℕ → ℝ} {N : ℕ} {tout s : ℕ → ℝ} (hH : 1 ≤ H)
    (h : smoothMoving n H t d = some (N, tout, s)) (hd : ∀ k, k + 2 * H < n → d (k + 2 * H) = d k) :
    ∀ k < N, s k = runMean d (2 * H) 0 := by
  obtain ⟨h1, h2⟩ := moving_spec hH h
  have step : ∀ k, k + 2 * H < n → runMean d (2 * H) (k + 1) = runMean d (2 * H) k := by
    intro k hk
    unfold runMean
    congr 1
    obtain ⟨m, hm⟩ : ∃ m, 2 * H = m + 1 := ⟨2 * H - 1, by omega⟩
    rw [hm, Finset.sum_range_succ, Finset.sum_range_succ' (fun j => d (k + j))]
    have := hd k hk
    have e : k + 1 + m = k + 2 * H := by omega
    rw [e, this]
    simp only [Nat.add_zero]
    congr 1
    exact Finset.sum_congr rfl fun j _ => by congr 1; omega
  have all : ∀ k, k + 2 * H ≤ n → runMean d (2 * H) k = runMean d (2 * H) 0 := by
    intro k
    induction k with
    | zero => intro _; rfl
    | succ k ih => intro hk; rw [step k (by omega), ih (by omega)]
  intro k hk
  rw [(h2 k).2, all k (by omega), all (k + 1) (by omega)]
  ring

/-- every smoothed value lies between bounds of the data -/
theorem moving_bounds {n H : ℕ} {t d : ℕ → ℝ} {N : ℕ} {tout s : ℕ → ℝ} (hH : 1 ≤ H)
    (h : smoothMoving n H t d = some (N, tout, s)) (lo hi : ℝ) (hd : ∀ k < n, lo ≤ d k ∧ d k ≤ hi) :
    ∀ k < N, lo ≤ s k ∧ s k ≤ hi := by
  obtain ⟨h1, h2⟩ := moving_spec hH h
  have key : ∀ k, k + 2 * H ≤ n → lo ≤ runMean d (2 * H) k ∧ runMean d (2 * H) k ≤ hi := by
    intro k hk
    unfold runMean
    have hp : (0 : ℝ) < (2 * H : ℕ) := by exact_mod_cast (by omega : 0 < 2 * H)
    rw [le_div_iff₀ hp, div_le_iff₀ hp]
    have s1 : ∑ j ∈ range (2 * H), lo ≤ ∑ j ∈ range (2 * H), d (k + j) :=
      Finset.sum_le_sum fun j hj => (hd _ (by have := mem_range.1 hj; omega)).1
    have s2 : ∑ j ∈ range (2 * H), d (k + j) ≤ ∑ j ∈ range (2 * H), hi :=
      Finset.sum_le_sum fun j hj => (hd _ (by have := mem_range.1 hj; omega)).2
    rw [Finset.sum_const, card_range, nsmul_eq_mul] at s1 s2
    constructor <;> linarith
  intro k hk
  rw [(h2 k).2]
  have a := key k (by omega)
  have b := key (k + 1) (by omega)
  constructor <;> linarith [a.1, a.2, b.1, b.2]

example : smoothMoving 25 6 (fun k => (k : ℝ) / 12) (fun k => k) ≠ none := by
  rw [Ne, moving_none]; omega

/-! ## Loess -/

/-- the model fitted in every window: constant, trend, annual and semi-annual waves -/
noncomputable def seasonalModel (b : Fin 6 → ℝ) (t : ℝ) : ℝ :=
  b 0 + b 1 * t + (b 2 * Real.sin (2 * Real.pi * t) + b 3 * Real.cos (2 * Real.pi * t)
    + (b 4 * Real.sin (4 * Real.pi * t) + b 5 * Real.cos (4 * Real.pi * t)))

theorem tmat_row (H : ℕ) (t : ℕ → ℝ) (i : ℕ) (r : Fin (2 * H + 1)) (b : Fin 6 → ℝ) :
    ∑ c, tmat H t i r c * b c = seasonalModel b (t (i + r)) := by
  rw [Fin.sum_univ_six]; unfold seasonalModel tmat; ring

theorem part_smooth (H : ℕ) (t : ℕ → ℝ) (i : ℕ) (b : Fin 6 → ℝ) (r : Fin (2 * H + 1)) :
    part H t i b 0 2 r = b 0 + b 1 * t (i + r) := by
  unfold part; rw [Fin.sum_univ_six]; simp [tmat]; ring

theorem part_annual (H : ℕ) (t : ℕ → ℝ) (i : ℕ) (b : Fin 6 → ℝ) (r : Fin (2 * H + 1)) :
    part H t i b 2 4 r = b 2 * Real.sin (2 * Real.pi * t (i + r)) + b 3 * Real.cos (2 * Real.pi * t (i + r)) := by
  unfold part; rw [Fin.sum_univ_six]; simp [tmat]; ring

theorem part_semi (H : ℕ) (t : ℕ → ℝ) (i : ℕ) (b : Fin 6 → ℝ) (r : Fin (2 * H + 1)) :
    part H t i b 4 6 r = b 4 * Real.sin (4 * Real.pi * t (i + r)) + b 5 * Real.cos (4 * Real.pi * t (i + r)) := by
  unfold part; rw [Fin.sum_univ_six]; simp [tmat]; ring

theorem part_season (H : ℕ) (t : ℕ → ℝ) (i : ℕ) (b : Fin 6 → ℝ) (r : Fin (2 * H + 1)) :
    part H t i b 2 6 r = part H t i b 2 4 r + part H t i b 4 6 r := by
  rw [part_annual, part_semi]
  unfold part; rw [Fin.sum_univ_six]; simp [tmat]; ring

/-- the times of window `i` determine the six coefficients -/
def WindowOk (H : ℕ) (t : ℕ → ℝ) (i : ℕ) : Prop :=
  ∀ b : Fin 6 → ℝ, (∀ r ≤ 2 * H, seasonalModel b (t (i + r)) = 0) → b = 0

theorem windowOk_iff (H : ℕ) (t : ℕ → ℝ) (i : ℕ) : WindowOk H t i ↔ FullRank (tmat H t i) := by
  unfold WindowOk FullRank
  refine forall_congr' fun b => ?_
  refine imp_congr_left ?_
  simp only [tmat_row]
  constructor
  · intro h r; exact h r (by have := r.2; omega)
  · intro h r hr; exact h ⟨r, by omega⟩

/-- C52: the Loess smoother raises exactly for one sample, fewer than `2H` samples, or when the times of some window
do not determine the six coefficients -/
theorem loess_none (erf : ℝ → ℝ) (tppf : ℝ → ℝ → ℝ) (n H : ℕ) (t d : ℕ → ℝ) (e : ℝ) (o : Opts) :
    smoothLoess erf tppf n H t d e o = none ↔ n = 1 ∨ n < 2 * H ∨ ∃ i, i + 2 * H < n ∧ ¬ WindowOk H t i := by
  have hinv : ∀ i, inv ((tmat H t i)ᵀ * tmat H t i) = none ↔ ¬ WindowOk H t i := by
    intro i
    rw [windowOk_iff, fullRank_iff]
    unfold inv
    by_cases h0 : ((tmat H t i)ᵀ * tmat H t i).det = 0 <;> simp [h0]
  unfold smoothLoess
  split
  · rename_i h; simp only [true_iff]; rcases h with h | h <;> simp [h]
  · rename_i h
    split
    · rename_i h2
      obtain ⟨i, h3, h4⟩ := h2
      simp only [true_iff]
      exact Or.inr (Or.inr ⟨i, by omega, (hinv i).1 h4⟩)
    · rename_i h2
      simp only [reduceCtorEq, false_iff]
      rintro (h3 | h3 | ⟨i, h3, h4⟩)
      · exact h (Or.inl h3)
      · exact h (Or.inr h3)
      · exact h2 ⟨i, by omega, (hinv i).2 h4⟩

/-- C52: half widths below 3 always raise when there is at least one window -/
theorem loess_narrow (erf : ℝ → ℝ) (tppf : ℝ → ℝ → ℝ) (n H : ℕ) (t d : ℕ → ℝ) (e : ℝ) (o : Opts)
    (hH : H ≤ 2) (hn : 2 * H < n) : smoothLoess erf tppf n H t d e o = none := by
  rw [loess_none]
  refine Or.inr (Or.inr ⟨0, by omega, ?_⟩)
  rw [windowOk_iff]
  intro hf
  have hlt : Module.finrank ℝ (Fin (2 * H + 1) → ℝ) < Module.finrank ℝ (Fin 6 → ℝ) := by
    rw [Module.finrank_fin_fun, Module.finrank_fin_fun]; omega
  have := LinearMap.ker_ne_bot_of_finrank_lt (f := (tmat H t 0).mulVecLin) hlt
  apply this
  rw [LinearMap.ker_eq_bot']
  intro v hv
  exact hf v fun r => congrFun hv r

/-- C52: every window is fitted by least squares, and the outputs are the components of the fit at the centre:
`reduce = data + seasonal + noise`, `seasonal = annual + semi-annual`, waves of the given amplitude and phase -/
theorem loess_spec {erf : ℝ → ℝ} {tppf : ℝ → ℝ → ℝ} {n H : ℕ} {t d : ℕ → ℝ} {e : ℝ} {o : Opts} {L : Loess}
    (h : smoothLoess erf tppf n H t d e o = some L) :
    L.N + 2 * H = n ∧ ∀ i < L.N,
      L.time i = t (i + H) ∧ L.reduce i = d (i + H) ∧
      L.reduce i = L.data i + L.seasonal i + L.noise i ∧
      L.seasonal i = L.annual i + L.semiann i ∧
      L.annual i = L.annamp i * Real.sin (2 * Real.pi * L.time i + L.annphase i * Real.pi / 180) ∧
      L.semiann i = L.semiamp i * Real.sin (4 * Real.pi * L.time i + L.semiphase i * Real.pi / 180) ∧
      ∃ b : Fin 6 → ℝ,
        (∀ b' : Fin 6 → ℝ, ∑ r ∈ range (2 * H + 1), (d (i + r) - seasonalModel b (t (i + r))) ^ 2
          ≤ ∑ r ∈ range (2 * H + 1), (d (i + r) - seasonalModel b' (t (i + r))) ^ 2) ∧
        L.data i = b 0 + b 1 * L.time i ∧ L.trend i = b 1 ∧
        L.annual i = b 2 * Real.sin (2 * Real.pi * L.time i) + b 3 * Real.cos (2 * Real.pi * L.time i) ∧
        L.semiann i = b 4 * Real.sin (4 * Real.pi * L.time i) + b 5 * Real.cos (4 * Real.pi * L.time i) := by
  unfold smoothLoess at h
  split at h
  · cases h
  split at h
  · cases h
  rename_i hn hw
  simp only [Option.some.injEq] at h
  subst h
  refine ⟨by simp only; omega, fun i hi => ⟨rfl, rfl, by simp only; ring, part_season _ _ _ _ _, ?_, ?_,
    wbeta H t d i, ?_, part_smooth _ _ _ _ _, rfl, part_annual _ _ _ _ _, part_semi _ _ _ _ _⟩⟩
  · simp only
    rw [part_annual, (amplitude_spec _ _).2.2.2.2]
    simp only [amplitude, mid]
    rw [mul_comm (180 : ℝ)]
  · simp only
    rw [part_semi, (amplitude_spec _ _).2.2.2.2]
    simp only [amplitude, mid]
    rw [mul_comm (180 : ℝ)]
  · intro b'
    have := (lstsq_spec (tmat H t i) (fun r => d (i + r))).1 b'
    unfold sse at this
    simp only [tmat_row] at this
    rw [Finset.sum_range, Finset.sum_range]
    exact this

/-- C52: data generated by the model are decomposed exactly: trend, annual and semi-annual terms are returned and the
noise is zero -/
theorem loess_exact {erf : ℝ → ℝ} {tppf : ℝ → ℝ → ℝ} {n H : ℕ} {t d : ℕ → ℝ} {e : ℝ} {o : Opts} {L : Loess}
    (h : smoothLoess erf tppf n H t d e o = some L) (b : Fin 6 → ℝ) (hd : ∀ k < n, d k = seasonalModel b (t k)) :
    ∀ i < L.N, L.data i = b 0 + b 1 * L.time i ∧ L.trend i = b 1 ∧ L.noise i = 0 ∧
      L.annual i = b 2 * Real.sin (2 * Real.pi * L.time i) + b 3 * Real.cos (2 * Real.pi * L.time i) ∧
      L.semiann i = b 4 * Real.sin (4 * Real.pi * L.time i) + b 5 * Real.cos (4 * Real.pi * L.time i) := by
  have hne : ¬ smoothLoess erf tppf n H t d e o = none := by rw [h]; simp
  rw [loess_none] at hne
  have hok : ∀ i, i + 2 * H < n → WindowOk H t i := fun i hi => by
    by_contra hc; exact hne (Or.inr (Or.inr ⟨i, hi, hc⟩))
  obtain ⟨hN, hs⟩ := loess_spec h
  intro i hi
  obtain ⟨h1, h2, h3, h4, -, -, b', hls, h5, h6, h7, h8⟩ := hs i hi
  have hb : b' = b := by
    have hz : ∑ r ∈ range (2 * H + 1), (d (i + r) - seasonalModel b (t (i + r))) ^ 2 = 0 :=
      Finset.sum_eq_zero fun r hr => by
        rw [hd _ (by have := mem_range.1 hr; omega)]; ring
    have hle := hls b
    rw [hz] at hle
    have h0 := (Finset.sum_eq_zero_iff_of_nonneg (fun r _ => sq_nonneg _)).1
      (le_antisymm hle (Finset.sum_nonneg fun r _ => sq_nonneg _))
    have := hok i (by omega) (fun c => b c - b' c) fun r hr => by
      have hr' := h0 r (mem_range.2 (by omega))
      have hr' := pow_eq_zero_iff (two_ne_zero) |>.1 hr'
      rw [hd _ (by omega)] at hr'
      unfold seasonalModel at hr' ⊢
      linear_combination hr'
    funext c
    have := congrFun this c
    simp only [Pi.zero_apply] at this
    linarith
  subst hb
  refine ⟨h5, h6, ?_, h7, h8⟩
  have : L.noise i = L.reduce i - L.data i - L.seasonal i := by linarith
  rw [this, h2, h4, h5, h7, h8, h1, hd _ (by omega)]
  unfold seasonalModel
  ring

/-- with known data errors the trend error is the propagated error, zero for no other reason than a zero `DATA_ERR`;
with unknown errors it is zero on data generated by the model -/
theorem loess_error_exact {erf : ℝ → ℝ} {tppf : ℝ → ℝ → ℝ} {n H : ℕ} {t d : ℕ → ℝ} {o : Opts} {L : Loess}
    (h : smoothLoess erf tppf n H t d 0 o = some L) (b : Fin 6 → ℝ) (hd : ∀ k < n, d k = seasonalModel b (t k)) :
    ∀ i < L.N, L.error i = 0 := by
  have hN := (loess_spec h).1
  intro i hi
  unfold smoothLoess at h
  split at h
  · cases h
  split at h
  · cases h
  simp only [Option.some.injEq] at h
  subst h
  simp only at hi hN ⊢
  unfold trendErr
  simp only [ne_eq, not_true_eq_false, if_false]
  have hz : ∑ r : Fin (2 * H + 1), (d (i + r.1) - ∑ c, tmat H t i r c * wbeta H t d i c) ^ 2 = 0 := by
    refine Finset.sum_eq_zero fun r _ => ?_
    have := lstsq_fitted (tmat H t i) b (fun r => d (i + r))
      (fun r => by rw [tmat_row]; exact hd _ (by have := r.2; omega)) r
    unfold wbeta
    rw [this]; ring
  rw [hz]; simp

/-! ### a window that determines the coefficients -/

/-- seven dates within a year -/
noncomputable def exTimes : ℕ → ℝ := fun k => [0, 1 / 8, 1 / 4, 1 / 2, 3 / 4, 7 / 8, 1].getD k 0

theorem exTimes_ok : WindowOk 3 exTimes 0 := by
  intro b h
  have h0 := h 0 (by norm_num)
  have h1 := h 1 (by norm_num)
  have h2 := h 2 (by norm_num)
  have h3 := h 3 (by norm_num)
  have h4 := h 4 (by norm_num)
  have h6 := h 6 (by norm_num)
  simp only [exTimes, seasonalModel, Nat.zero_add, List.getD_cons_zero, List.getD_cons_succ] at h0 h1 h2 h3 h4 h6
  rw [show 2 * Real.pi * 0 = 0 by ring, show 4 * Real.pi * 0 = 0 by ring, Real.sin_zero, Real.cos_zero] at h0
  rw [show 2 * Real.pi * (1 / 8) = Real.pi / 4 by ring, show 4 * Real.pi * (1 / 8) = Real.pi / 2 by ring,
    Real.sin_pi_div_two, Real.cos_pi_div_two, Real.sin_pi_div_four, Real.cos_pi_div_four] at h1
  rw [show 2 * Real.pi * (1 / 4) = Real.pi / 2 by ring, show 4 * Real.pi * (1 / 4) = Real.pi by ring,
    Real.sin_pi_div_two, Real.cos_pi_div_two, Real.sin_pi, Real.cos_pi] at h2
  rw [show 2 * Real.pi * (1 / 2) = Real.pi by ring, show 4 * Real.pi * (1 / 2) = 2 * Real.pi by ring,
    Real.sin_two_pi, Real.cos_two_pi, Real.sin_pi, Real.cos_pi] at h3
  rw [show 2 * Real.pi * (3 / 4) = Real.pi / 2 + Real.pi by ring, show 4 * Real.pi * (3 / 4) = Real.pi + 2 * Real.pi by ring,
    Real.sin_add_pi, Real.cos_add_pi, Real.sin_add_two_pi, Real.cos_add_two_pi,
    Real.sin_pi_div_two, Real.cos_pi_div_two, Real.sin_pi, Real.cos_pi] at h4
  rw [show 2 * Real.pi * 1 = 2 * Real.pi by ring, show 4 * Real.pi * 1 = 2 * Real.pi + 2 * Real.pi by ring,
    Real.sin_add_two_pi, Real.cos_add_two_pi, Real.sin_two_pi, Real.cos_two_pi] at h6
  have b1 : b 1 = 0 := by linarith
  have b3 : b 3 = 0 := by linarith
  have b2 : b 2 = 0 := by linarith
  have b0 : b 0 = 0 := by linarith
  have b5 : b 5 = 0 := by linarith
  have b4 : b 4 = 0 := by rw [b0, b1, b2, b3, b5] at h1; linarith
  funext c
  fin_cases c <;> assumption

example (erf : ℝ → ℝ) (tppf : ℝ → ℝ → ℝ) (d : ℕ → ℝ) : smoothLoess erf tppf 7 3 exTimes d 0 {} ≠ none := by
  rw [Ne, loess_none]
  rintro (h | h | ⟨i, h, h2⟩)
  · omega
  · omega
  · have : i = 0 := by omega
    subst this; exact h2 exTimes_ok

/-! ## Weighted smoother -/

theorem accumulate_eq (n H : ℕ) (v : ℕ → Fin (2 * H + 1) → ℝ) (p : ℕ) :
    accumulate n H v p = ∑ i ∈ range (n - 2 * H), if h : i ≤ p ∧ p < i + (2 * H + 1) then v i ⟨p - i, by omega⟩ else 0 := by
  unfold accumulate
  induction n - 2 * H with
  | zero => simp
  | succ m ih =>
    rw [List.range_succ, List.foldl_append, Finset.sum_range_succ]
    simp only [List.foldl_cons, List.foldl_nil]
    split
    · rw [ih]
    · rw [ih, add_zero]

theorem accumulate_congr {n H : ℕ} {v w : ℕ → Fin (2 * H + 1) → ℝ} {p : ℕ}
    (h : ∀ i, i + 2 * H < n → ∀ r : Fin (2 * H + 1), i + r = p → v i r = w i r) :
    accumulate n H v p = accumulate n H w p := by
  rw [accumulate_eq, accumulate_eq]
  refine Finset.sum_congr rfl fun i hi => ?_
  split
  · rename_i hp
    exact h i (by have := mem_range.1 hi; omega) _ (by simp only; omega)
  · rfl

theorem accumulate_add (n H : ℕ) (v w : ℕ → Fin (2 * H + 1) → ℝ) (p : ℕ) :
    accumulate n H (fun i r => v i r + w i r) p = accumulate n H v p + accumulate n H w p := by
  rw [accumulate_eq, accumulate_eq, accumulate_eq, ← Finset.sum_add_distrib]
  refine Finset.sum_congr rfl fun i _ => ?_
  split <;> simp

theorem accumulate_mul (n H : ℕ) (v : ℕ → Fin (2 * H + 1) → ℝ) (c : ℝ) (p : ℕ) :
    accumulate n H (fun i r => v i r * c) p = accumulate n H v p * c := by
  rw [accumulate_eq, accumulate_eq, Finset.sum_mul]
  refine Finset.sum_congr rfl fun i _ => ?_
  split <;> simp

theorem accumulate_mono {n H : ℕ} {v w : ℕ → Fin (2 * H + 1) → ℝ} {p : ℕ}
    (h : ∀ i, i + 2 * H < n → ∀ r, v i r ≤ w i r) : accumulate n H v p ≤ accumulate n H w p := by
  rw [accumulate_eq, accumulate_eq]
  refine Finset.sum_le_sum fun i hi => ?_
  split
  · exact h i (by have := mem_range.1 hi; omega) _
  · exact le_rfl

/-- the linear weights are `1, …, H+1, …, 1`; all weights are positive -/
theorem windowWeight_pos (WEIGHT H r : ℕ) (hr : r ≤ 2 * H) : 0 < windowWeight WEIGHT H r := by
  unfold windowWeight
  have hr' : (r : ℝ) ≤ 2 * H := by exact_mod_cast hr
  have := Real.pi_pos
  split
  · split
    · positivity
    · linarith
  · positivity

theorem windowWeight_linear (H r : ℕ) (hr : r ≤ 2 * H) :
    windowWeight 1 H r = ((min (r + 1) (2 * H + 1 - r) : ℕ) : ℝ) := by
  unfold windowWeight
  rw [if_pos rfl]
  split
  · rename_i h; rw [min_eq_left (by omega)]; push_cast; rfl
  · rename_i h; rw [min_eq_right (by omega), Nat.cast_sub (by omega)]; push_cast; rfl

/-- the weights are symmetric and largest at the centre -/
theorem windowWeight_sym (WEIGHT H r : ℕ) (hr : r ≤ 2 * H) :
    windowWeight WEIGHT H (2 * H - r) = windowWeight WEIGHT H r ∧ windowWeight WEIGHT H r ≤ windowWeight WEIGHT H H := by
  by_cases hw : WEIGHT = 1
  · subst hw
    rw [windowWeight_linear _ _ (by omega), windowWeight_linear _ _ hr, windowWeight_linear _ _ (by omega)]
    constructor
    · congr 1; omega
    · exact_mod_cast (by omega)
  · unfold windowWeight
    rw [if_neg hw, if_neg hw, if_neg hw]
    rw [Nat.cast_sub hr]; push_cast
    have := Real.pi_pos
    constructor
    · congr 2; ring
    · apply div_le_div_of_nonneg_right _ (by positivity)
      apply Real.exp_le_exp.2
      have := sq_nonneg ((r : ℝ) - H)
      rw [sub_self]; norm_num
      linarith

/-- sum of the weights of the windows that contain date `p` -/
noncomputable def totalWeight (n H WEIGHT p : ℕ) : ℝ := accumulate n H (fun _ r => windowWeight WEIGHT H r) p

theorem totalWeight_pos {n H WEIGHT p : ℕ} (hn : 2 * H < n) (hp : p < n) : 0 < totalWeight n H WEIGHT p := by
  unfold totalWeight
  rw [accumulate_eq]
  refine Finset.sum_pos' (fun i _ => ?_) ⟨min p (n - 2 * H - 1), mem_range.2 (by omega), ?_⟩
  · split
    · exact (windowWeight_pos _ _ _ (by simp only; omega)).le
    · exact le_rfl
  · rw [dif_pos ⟨by omega, by omega⟩]
    exact windowWeight_pos _ _ _ (by simp only; omega)

/-- C52: with weights every date gets a value.  Each component is the weighted mean, over the windows that contain the
date, of that component of the window's least-squares fit; together with the noise they give back the data -/
theorem weighted_spec {n H WEIGHT : ℕ} {t d : ℕ → ℝ} {L : Loess} (h : smoothWeighted n H t d WEIGHT = some L) :
    ∃ b : ℕ → Fin 6 → ℝ,
      (∀ i b', ∑ r ∈ range (2 * H + 1), (d (i + r) - seasonalModel (b i) (t (i + r))) ^ 2
          ≤ ∑ r ∈ range (2 * H + 1), (d (i + r) - seasonalModel b' (t (i + r))) ^ 2) ∧
      L.N = n ∧ ∀ p < n, L.time p = t p ∧ d p = L.data p + L.seasonal p + L.noise p ∧
        L.seasonal p = L.annual p + L.semiann p ∧
        L.data p = (∑ i ∈ range (n - 2 * H), if i ≤ p ∧ p ≤ i + 2 * H then
          windowWeight WEIGHT H (p - i) * (b i 0 + b i 1 * t p) else 0) / totalWeight n H WEIGHT p ∧
        L.annual p = (∑ i ∈ range (n - 2 * H), if i ≤ p ∧ p ≤ i + 2 * H then
          windowWeight WEIGHT H (p - i) * (b i 2 * Real.sin (2 * Real.pi * t p) + b i 3 * Real.cos (2 * Real.pi * t p)) else 0)
            / totalWeight n H WEIGHT p ∧
        L.semiann p = (∑ i ∈ range (n - 2 * H), if i ≤ p ∧ p ≤ i + 2 * H then
          windowWeight WEIGHT H (p - i) * (b i 4 * Real.sin (4 * Real.pi * t p) + b i 5 * Real.cos (4 * Real.pi * t p)) else 0)
            / totalWeight n H WEIGHT p := by
  unfold smoothWeighted at h
  split at h
  · cases h
  simp only [Option.some.injEq] at h
  subst h
  refine ⟨wbeta H t d, ?_, rfl, fun p hp => ⟨rfl, by simp only; ring, ?_, ?_, ?_, ?_⟩⟩
  · intro i b'
    have := (lstsq_spec (tmat H t i) (fun r => d (i + r))).1 b'
    unfold sse at this
    simp only [tmat_row] at this
    rw [Finset.sum_range, Finset.sum_range]
    exact this
  · simp only
    rw [← add_div, ← accumulate_add]
    congr 1
    exact accumulate_congr fun i _ r _ => by rw [part_season]; ring
  all_goals
    simp only
    unfold totalWeight
    congr 1
    rw [accumulate_eq]
    refine Finset.sum_congr rfl fun i _ => ?_
    by_cases hc : i ≤ p ∧ p ≤ i + 2 * H
    · rw [if_pos hc, dif_pos ⟨hc.1, by omega⟩]
      simp only [part_smooth, part_annual, part_semi, show i + (p - i) = p by omega]
    · rw [if_neg hc, dif_neg (by omega)]

/-- C52: data generated by the model leave no noise, whatever the windows; if every window determines the
coefficients the components are returned exactly -/
theorem weighted_exact {n H WEIGHT : ℕ} {t d : ℕ → ℝ} {L : Loess} (h : smoothWeighted n H t d WEIGHT = some L)
    (hn : 2 * H < n) (b : Fin 6 → ℝ) (hd : ∀ k < n, d k = seasonalModel b (t k)) :
    (∀ p < n, L.noise p = 0) ∧
    ((∀ i, i + 2 * H < n → WindowOk H t i) → ∀ p < n, L.data p = b 0 + b 1 * t p ∧
      L.annual p = b 2 * Real.sin (2 * Real.pi * t p) + b 3 * Real.cos (2 * Real.pi * t p) ∧
      L.semiann p = b 4 * Real.sin (4 * Real.pi * t p) + b 5 * Real.cos (4 * Real.pi * t p) ∧
      L.annamp p = Real.sqrt (b 2 ^ 2 + b 3 ^ 2) ∧ L.semiamp p = Real.sqrt (b 4 ^ 2 + b 5 ^ 2)) := by
  unfold smoothWeighted at h
  split at h
  · cases h
  simp only [Option.some.injEq] at h
  subst h
  have hw : ∀ p < n, accumulate n H (fun _ r => windowWeight WEIGHT H r) p ≠ 0 :=
    fun p hp => (totalWeight_pos (WEIGHT := WEIGHT) hn hp).ne'
  have mean : ∀ (v : ℕ → Fin (2 * H + 1) → ℝ) (c : ℝ) (p : ℕ), p < n →
      (∀ i, i + 2 * H < n → ∀ r : Fin (2 * H + 1), i + r = p → v i r = c) →
      accumulate n H (fun i r => windowWeight WEIGHT H r * v i r) p / accumulate n H (fun _ r => windowWeight WEIGHT H r) p = c := by
    intro v c p hp hv
    rw [accumulate_congr (w := fun i r => windowWeight WEIGHT H r * c) fun i hi r hr => by rw [hv i hi r hr],
      accumulate_mul, mul_div_assoc, mul_comm, div_mul_cancel₀ _ (hw p hp)]
  constructor
  · intro p hp
    simp only
    rw [sub_sub, ← add_div, ← accumulate_add]
    have := mean (fun i r => part H t i (wbeta H t d i) 0 2 r + part H t i (wbeta H t d i) 2 6 r) (d p) p hp
      fun i hi r hr => by
        have h1 := lstsq_fitted (tmat H t i) b (fun r => d (i + r))
          (fun r => by rw [tmat_row]; exact hd _ (by have := r.2; omega)) r
        rw [tmat_row, hr] at h1
        rw [part_season, part_smooth, part_annual, part_semi, hr, ← h1]
        unfold seasonalModel wbeta
        ring
    simp only [mul_add] at this
    rw [this, sub_self]
  · intro hok p hp
    have hb : ∀ i, i + 2 * H < n → wbeta H t d i = b := fun i hi =>
      lstsq_exact ((windowOk_iff H t i).1 (hok i hi)) b _ fun r => by
        rw [tmat_row]; exact hd _ (by have := r.2; omega)
    refine ⟨?_, ?_, ?_, ?_, ?_⟩
    · exact mean _ _ p hp fun i hi r hr => by rw [part_smooth, hr, hb i hi]
    · exact mean _ _ p hp fun i hi r hr => by rw [part_annual, hr, hb i hi]
    · exact mean _ _ p hp fun i hi r hr => by rw [part_semi, hr, hb i hi]
    · exact mean (fun i _ => (amplitude (wbeta H t d i 2) (wbeta H t d i 3)).1) _ p hp fun i hi r hr => by
        rw [hb i hi]; rfl
    · exact mean (fun i _ => (amplitude (wbeta H t d i 4) (wbeta H t d i 5)).1) _ p hp fun i hi r hr => by
        rw [hb i hi]; rfl

example (d : ℕ → ℝ) (W : ℕ) : (∃ L, smoothWeighted 7 3 exTimes d W = some L) ∧
    ∀ i, i + 2 * 3 < 7 → WindowOk 3 exTimes i := by
  refine ⟨⟨_, if_neg (by norm_num)⟩, fun i hi => ?_⟩
  have : i = 0 := by omega
  subst this; exact exTimes_ok

end Verif.TimeSeries
