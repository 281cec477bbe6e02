import Verif.TimeSeries.SmoothModel
import Mathlib.Tactic.FieldSimp
import Mathlib.Tactic.Positivity
import Mathlib.Analysis.Real.Pi.Bounds

/-!
# C66: `lomb_scargle`
-/
namespace Verif.TimeSeries
open Finset

theorem linspace_first (a b : ℝ) (N : ℕ) : linspace a b N 0 = a := by unfold linspace; split <;> simp

theorem linspace_last (a b : ℝ) {N : ℕ} (hN : 2 ≤ N) : linspace a b N (N - 1) = b := by
  unfold linspace
  rw [if_neg (by omega), Nat.cast_sub (by omega)]
  have : (N : ℝ) - 1 ≠ 0 := by
    have : (2 : ℝ) ≤ N := by exact_mod_cast hN
    linarith
  push_cast
  field_simp
  ring

theorem linspace_between {a b : ℝ} {N i : ℕ} (hab : a ≤ b) (hi : i < N) : a ≤ linspace a b N i ∧ linspace a b N i ≤ b := by
  unfold linspace
  split
  · exact ⟨le_rfl, hab⟩
  · have hN : (2 : ℝ) ≤ N := by exact_mod_cast (by omega : 2 ≤ N)
    have hi' : (i : ℝ) ≤ N - 1 := by
      have : (i : ℝ) + 1 ≤ N := by exact_mod_cast hi
      linarith
    have h0 : 0 ≤ (b - a) / (N - 1) := div_nonneg (by linarith) (by linarith)
    constructor
    · have := mul_nonneg (Nat.cast_nonneg (α := ℝ) i) h0; linarith
    · have h1 := mul_le_mul_of_nonneg_right hi' h0
      have h2 : ((N : ℝ) - 1) * ((b - a) / (N - 1)) = b - a := by
        field_simp [show (N : ℝ) - 1 ≠ 0 by linarith]
      linarith

/-- C66: `N` evenly spaced frequencies from the first to the last of an angular frequency range -/
theorem lomb_omega (psd : (ℕ → ℝ) → (ℕ → ℝ) → ℝ → ℝ) (n : ℕ) (t d : ℕ → ℝ) (a b : ℝ) {N : ℕ} (hN : 2 ≤ N) :
    let L := lombScargle psd n t d (.omega a b) N
    L.frequency 0 = a / (2 * Real.pi) ∧ L.frequency (N - 1) = b / (2 * Real.pi) ∧
      ∀ i, L.frequency (i + 1) - L.frequency i = (b - a) / (2 * Real.pi) / (N - 1) := by
  refine ⟨?_, ?_, fun i => ?_⟩
  · simp only [lombScargle, omegaOf, linspace_first]
  · simp only [lombScargle, omegaOf, linspace_last a b hN]
  · simp only [lombScargle, omegaOf]
    unfold linspace
    rw [if_neg (by omega), if_neg (by omega)]
    push_cast
    ring

/-- C66: a period range is reproduced at its ends -/
theorem lomb_period (psd : (ℕ → ℝ) → (ℕ → ℝ) → ℝ → ℝ) (n : ℕ) (t d : ℕ → ℝ) {a b : ℝ} (ha : a ≠ 0) (hb : b ≠ 0) {N : ℕ}
    (hN : 2 ≤ N) :
    let L := lombScargle psd n t d (.period a b) N
    L.period 0 = a ∧ L.period (N - 1) = b := by
  have := Real.pi_ne_zero
  constructor
  · simp only [lombScargle, omegaOf, linspace_first]; field_simp
  · simp only [lombScargle, omegaOf, linspace_last _ _ hN]; field_simp

/-- C66 is violated for `FREQUENCY`: the range is divided by `2 pi` instead of multiplied, so the frequencies
searched run from `a / (4 pi^2)` to `b / (4 pi^2)`: no nonzero range is searched as asked -/
theorem lomb_frequency_wrong (psd : (ℕ → ℝ) → (ℕ → ℝ) → ℝ → ℝ) (n : ℕ) (t d : ℕ → ℝ) (a b : ℝ) {N : ℕ} (hN : 2 ≤ N) :
    let L := lombScargle psd n t d (.frequency a b) N
    L.frequency 0 = a / (4 * Real.pi ^ 2) ∧ L.frequency (N - 1) = b / (4 * Real.pi ^ 2) ∧ (a ≠ 0 → L.frequency 0 ≠ a) := by
  have hp := Real.pi_gt_three
  have e : ∀ x : ℝ, x / (2 * Real.pi) / (2 * Real.pi) = x / (4 * Real.pi ^ 2) := fun x => by
    rw [div_div]; congr 1; ring
  refine ⟨?_, ?_, fun h hc => ?_⟩
  · simp only [lombScargle, omegaOf, linspace_first, e]
  · simp only [lombScargle, omegaOf, linspace_last _ _ hN, e]
  · simp only [lombScargle, omegaOf, linspace_first, e] at hc
    have h4 : 4 * Real.pi ^ 2 ≠ 0 := by positivity
    rw [div_eq_iff h4] at hc
    have : a * (4 * Real.pi ^ 2 - 1) = 0 := by linarith
    rcases mul_eq_zero.1 this with h0 | h0
    · exact h h0
    · nlinarith

/-- C66: frequency and period are reciprocals -/
theorem lomb_reciprocal (psd : (ℕ → ℝ) → (ℕ → ℝ) → ℝ → ℝ) (n : ℕ) (t d : ℕ → ℝ) (rg : Range) (N i : ℕ) :
    let L := lombScargle psd n t d rg N
    L.period i = 1 / L.frequency i := by
  simp only [lombScargle, one_div, inv_div]

theorem argmax_spec (f : ℕ → ℝ) {N : ℕ} (hN : 0 < N) :
    argmax N f < N ∧ (∀ j < N, f j ≤ f (argmax N f)) ∧ ∀ j < argmax N f, f j < f (argmax N f) := by
  unfold argmax
  induction N with
  | zero => omega
  | succ m ih =>
    rw [List.range_succ, List.foldl_append]
    simp only [List.foldl_cons, List.foldl_nil]
    rcases Nat.eq_zero_or_pos m with rfl | hm
    · simp
    · obtain ⟨h1, h2, h3⟩ := ih hm
      set k := List.foldl (fun k i => if f k < f i then i else k) 0 (List.range m) with hk
      split
      · rename_i hlt
        refine ⟨by omega, fun j hj => ?_, fun j hj => (h2 j hj).trans_lt hlt⟩
        rcases Nat.lt_succ_iff_lt_or_eq.1 hj with hj | rfl
        · exact (h2 j hj).trans hlt.le
        · exact le_rfl
      · rename_i hlt
        refine ⟨by omega, fun j hj => ?_, h3⟩
        rcases Nat.lt_succ_iff_lt_or_eq.1 hj with hj | rfl
        · exact h2 j hj
        · exact not_lt.1 hlt

/-- C66: the peak is the period of the first frequency of largest power, which has the smallest false-alarm probability -/
theorem lomb_peak (psd : (ℕ → ℝ) → (ℕ → ℝ) → ℝ → ℝ) (n : ℕ) (t d : ℕ → ℝ) (rg : Range) {N : ℕ} (hN : 0 < N) :
    let L := lombScargle psd n t d rg N
    ∃ k < N, L.peak = L.period k ∧ (∀ j < N, L.power j ≤ L.power k) ∧ (∀ j < k, L.power j < L.power k) ∧
      ((∀ j < N, 0 ≤ L.power j) → ∀ j < N, L.probability k ≤ L.probability j) := by
  intro L
  obtain ⟨h1, h2, h3⟩ := argmax_spec L.power hN
  refine ⟨argmax N L.power, h1, rfl, h2, h3, fun h0 j hj => ?_⟩
  have e : ∀ i, L.probability i = 1 - (1 - Real.exp (-L.power i)) ^ independentFreq n := fun i => rfl
  rw [e, e]
  have hexp : Real.exp (-L.power j) ≤ 1 := Real.exp_le_one_iff.2 (by have := h0 j hj; linarith)
  have hmono : Real.exp (-L.power (argmax N L.power)) ≤ Real.exp (-L.power j) :=
    Real.exp_le_exp.2 (by have := h2 j hj; linarith)
  have := pow_le_pow_left₀ (by linarith : 0 ≤ 1 - Real.exp (-L.power j))
    (by linarith : 1 - Real.exp (-L.power j) ≤ 1 - Real.exp (-L.power (argmax N L.power))) (independentFreq n)
  linarith

/-- at least one independent frequency -/
theorem independentFreq_pos (n : ℕ) : 1 ≤ independentFreq n := by
  unfold independentFreq
  have := le_max_right (roundEven (-6.362 + 1.193 * n + 0.00098 * (n : ℝ) ^ 2)) 1
  omega

/-- C66: for nonnegative power the probability lies in [0, 1] -/
theorem lomb_probability (psd : (ℕ → ℝ) → (ℕ → ℝ) → ℝ → ℝ) (n : ℕ) (t d : ℕ → ℝ) (rg : Range) (N i : ℕ) :
    let L := lombScargle psd n t d rg N
    0 ≤ L.power i → 0 ≤ L.probability i ∧ L.probability i ≤ 1 := by
  intro L h
  have e : L.probability i = 1 - (1 - Real.exp (-L.power i)) ^ independentFreq n := rfl
  have h1 : Real.exp (-L.power i) ≤ 1 := Real.exp_le_one_iff.2 (by linarith)
  have h2 := Real.exp_pos (-L.power i)
  have h3 := pow_nonneg (by linarith : 0 ≤ 1 - Real.exp (-L.power i)) (independentFreq n)
  have h4 := pow_le_one₀ (by linarith : 0 ≤ 1 - Real.exp (-L.power i)) (by linarith : 1 - Real.exp (-L.power i) ≤ 1)
    (n := independentFreq n)
  rw [e]
  constructor <;> linarith

/-- C66: a power equal to the contour of level `p` has probability exactly `p`; larger powers have less, smaller
nonnegative powers more -/
theorem lomb_contour (psd : (ℕ → ℝ) → (ℕ → ℝ) → ℝ → ℝ) (n : ℕ) (t d : ℕ → ℝ) (rg : Range) (N i : ℕ) {p : ℝ}
    (hp : 0 < p) (hp1 : p < 1) :
    let L := lombScargle psd n t d rg N
    0 < L.contour p ∧ (L.power i = L.contour p → L.probability i = p) ∧ (L.contour p < L.power i → L.probability i < p) ∧
      (0 ≤ L.power i → L.power i < L.contour p → p < L.probability i) := by
  intro L
  have e : L.probability i = 1 - (1 - Real.exp (-L.power i)) ^ independentFreq n := rfl
  have hM := independentFreq_pos n
  set M := independentFreq n
  have hM0 : M ≠ 0 := by omega
  set q := (1 - p) ^ ((1 : ℝ) / M) with hq
  have ec : L.contour p = -Real.log (1 - q) := rfl
  have hq0 : 0 < q := Real.rpow_pos_of_pos (by linarith) _
  have hq1 : q < 1 := Real.rpow_lt_one (by linarith) (by linarith) (by positivity)
  have hqM : q ^ M = 1 - p := by
    rw [hq, ← Real.rpow_natCast, ← Real.rpow_mul (by linarith), one_div, inv_mul_cancel₀ (by exact_mod_cast hM0), Real.rpow_one]
  have hexp : Real.exp (-L.contour p) = 1 - q := by rw [ec, neg_neg, Real.exp_log (by linarith)]
  refine ⟨?_, fun h => ?_, fun h => ?_, fun h0 h => ?_⟩
  · have := Real.log_neg (by linarith : 0 < 1 - q) (by linarith)
    rw [ec]; linarith
  · rw [e, h, hexp, sub_sub_cancel, hqM]; ring
  · have h1 : Real.exp (-L.power i) < 1 - q := by rw [← hexp]; exact Real.exp_lt_exp.2 (by linarith)
    have := pow_lt_pow_left₀ (by linarith : q < 1 - Real.exp (-L.power i)) hq0.le hM0
    rw [e]; rw [hqM] at this; linarith
  · have h1 : 1 - q < Real.exp (-L.power i) := by rw [← hexp]; exact Real.exp_lt_exp.2 (by linarith)
    have h2 : Real.exp (-L.power i) ≤ 1 := Real.exp_le_one_iff.2 (by linarith)
    have := pow_lt_pow_left₀ (by linarith : 1 - Real.exp (-L.power i) < q) (by linarith) hM0
    rw [e]; rw [hqM] at this; linarith

/-- C66: for nonnegative power that is not all zero the centroid lies within the periods -/
theorem lomb_centroid (psd : (ℕ → ℝ) → (ℕ → ℝ) → ℝ → ℝ) (n : ℕ) (t d : ℕ → ℝ) (rg : Range) (N : ℕ) (lo hi : ℝ) :
    let L := lombScargle psd n t d rg N
    (∀ i < N, 0 ≤ L.power i) → (∃ i < N, L.power i ≠ 0) → (∀ i < N, lo ≤ L.period i ∧ L.period i ≤ hi) →
      lo ≤ L.centroid ∧ L.centroid ≤ hi := by
  intro L h0 hne hb
  have hpos : 0 < ∑ i ∈ range N, L.power i := by
    obtain ⟨i, hi', hne⟩ := hne
    exact Finset.sum_pos' (fun i hi => h0 i (mem_range.1 hi)) ⟨i, mem_range.2 hi', lt_of_le_of_ne (h0 i hi') (Ne.symm hne)⟩
  have e : L.centroid = (∑ i ∈ range N, L.period i * L.power i) / ∑ i ∈ range N, L.power i := rfl
  rw [e, le_div_iff₀ hpos, div_le_iff₀ hpos, Finset.mul_sum, Finset.mul_sum]
  exact ⟨Finset.sum_le_sum fun i hi => mul_le_mul_of_nonneg_right (hb i (mem_range.1 hi)).1 (h0 i (mem_range.1 hi)),
    Finset.sum_le_sum fun i hi => mul_le_mul_of_nonneg_right (hb i (mem_range.1 hi)).2 (h0 i (mem_range.1 hi))⟩

/-- C66: the Nyquist frequency is half of the mean sampling rate over the record -/
theorem lomb_nyquist (psd : (ℕ → ℝ) → (ℕ → ℝ) → ℝ → ℝ) (n : ℕ) (t d : ℕ → ℝ) (rg : Range) (N : ℕ) :
    (lombScargle psd n t d rg N).nyquist = ((n - 1 : ℕ) : ℝ) / (2 * (t (n - 1) - t 0)) := by
  simp only [lombScargle]
  rw [Finset.sum_range_sub]
  rw [← mul_div_assoc, one_div_div]

/-- C66: the periodogram does not change when the dates are shifted and the data are shifted and scaled by a
positive factor -/
theorem lomb_affine (psd : (ℕ → ℝ) → (ℕ → ℝ) → ℝ → ℝ) (n : ℕ) (hn : 0 < n) (t d : ℕ → ℝ) (rg : Range) (N : ℕ) (s c : ℝ) {a : ℝ}
    (ha : 0 < a) :
    (lombScargle psd n (fun i => t i + s) (fun i => a * d i + c) rg N).power = (lombScargle psd n t d rg N).power := by
  simp only [lombScargle]
  have hn' : (n : ℝ) ≠ 0 := by positivity
  have hm : (∑ i ∈ range n, (a * d i + c)) / n = a * ((∑ i ∈ range n, d i) / n) + c := by
    rw [Finset.sum_add_distrib, ← Finset.mul_sum, Finset.sum_const, card_range, nsmul_eq_mul]
    field_simp
  rw [hm]
  set m := (∑ i ∈ range n, d i) / n
  have hs : ∑ i ∈ range n, (a * d i + c - (a * m + c)) ^ 2 = a ^ 2 * ∑ i ∈ range n, (d i - m) ^ 2 := by
    rw [Finset.mul_sum]; exact Finset.sum_congr rfl fun i _ => by ring
  rw [hs, mul_div_assoc, Real.sqrt_mul (by positivity), Real.sqrt_sq ha.le]
  funext i
  congr 1
  · funext j; ring
  · funext j
    rw [show a * d j + c - (a * m + c) = a * (d j - m) by ring, mul_div_mul_left _ _ ha.ne']

example : (0 : ℝ) < 0.05 ∧ (0.05 : ℝ) < 1 := by norm_num

end Verif.TimeSeries
