import Verif.Resolution.Model
import Verif.Geocenter.Props
import Mathlib.Analysis.SpecialFunctions.Trigonometric.Bounds

/-!
# C121: smallest resolved length, and the seasonal geocenter
-/
namespace Verif.Resolution
open Verif.Geocenter

/-- area of a spherical cap of a given angular radius -/
noncomputable def capArea (R angle : ℝ) : ℝ := 2 * Real.pi * R ^ 2 * (1 - Real.cos angle)

/-- **C121** the half wavelength: as many of them as the degree says make half a circumference; degree zero is refused -/
theorem resolution_wave (L : ℕ) (R : ℝ) :
    (L = 0 → resolution L R false = none) ∧
      (L ≠ 0 → ∃ r, resolution L R false = some r ∧ L * r = Real.pi * R) := by
  constructor
  · rintro rfl; simp [resolution]
  · intro h
    have : (L : ℝ) ≠ 0 := by exact_mod_cast h
    exact ⟨Real.pi * R / L, by simp [resolution, h], by field_simp⟩

theorem inv_mem (L : ℕ) : (0 : ℝ) < 1 / (L + 1) ∧ (1 : ℝ) / (L + 1) ≤ 1 := by
  have : (0 : ℝ) < (L : ℝ) + 1 := by positivity
  exact ⟨by positivity, by rw [div_le_one this]; have : (0 : ℝ) ≤ L := Nat.cast_nonneg L; linarith⟩

/-- **C121** the cap whose diameter is given has the area of the sphere divided by the number of coefficients -/
theorem resolution_cap (L : ℕ) (R : ℝ) (hR : R ≠ 0) : ∃ r, resolution L R true = some r ∧
    capArea R (r / 2 / R) = 4 * Real.pi * R ^ 2 / ((L : ℝ) + 1) ^ 2 := by
  refine ⟨4 * R * Real.arcsin (1 / (L + 1)), by simp [resolution], ?_⟩
  obtain ⟨h1, h2⟩ := inv_mem L
  have e : 4 * R * Real.arcsin (1 / (L + 1)) / 2 / R = 2 * Real.arcsin (1 / (L + 1)) := by field_simp; ring
  unfold capArea
  rw [e, Real.cos_two_mul, Real.cos_sq', Real.sin_arcsin (by linarith) h2]
  have : (L : ℝ) + 1 ≠ 0 := by positivity
  field_simp
  ring

/-- **C121** the length is positive, and gets smaller with the degree -/
theorem resolution_decreasing (cap : Bool) (L L' : ℕ) (R a b : ℝ) (hR : 0 < R) (h : L < L')
    (ha : resolution L R cap = some a) (hb : resolution L' R cap = some b) : 0 < b ∧ b < a := by
  have hLL : (L : ℝ) < L' := by exact_mod_cast h
  have hL0 : (0 : ℝ) ≤ L := Nat.cast_nonneg L
  cases cap with
  | true =>
    simp only [resolution, if_true, Option.some.injEq] at ha hb
    obtain ⟨h1, h2⟩ := inv_mem L
    obtain ⟨h3, h4⟩ := inv_mem L'
    have hlt : (1 : ℝ) / (L' + 1) < 1 / (L + 1) := one_div_lt_one_div_of_lt (by linarith) (by linarith)
    rw [← ha, ← hb]
    constructor
    · have := Real.arcsin_pos.2 h3
      positivity
    · exact mul_lt_mul_of_pos_left (Real.arcsin_lt_arcsin (by linarith) hlt h2) (by positivity)
  | false =>
    by_cases h0 : L = 0
    · simp [resolution, h0] at ha
    have h0' : L' ≠ 0 := by omega
    simp only [resolution, h0, h0', if_false, Bool.false_eq_true, Option.some.injEq] at ha hb
    have hp : (0 : ℝ) < L := lt_of_le_of_ne hL0 (by exact_mod_cast (Ne.symm h0))
    rw [← ha, ← hb]
    have := Real.pi_pos
    exact ⟨by have : (0 : ℝ) < L' := by linarith
              positivity, div_lt_div_of_pos_left (by positivity) hp hLL⟩

/-- **C121** the length is proportional to the radius -/
theorem resolution_radius (cap : Bool) (L : ℕ) (R k r : ℝ) (h : resolution L R cap = some r) :
    resolution L (k * R) cap = some (k * r) := by
  cases cap with
  | true =>
    simp only [resolution, if_true, Option.some.injEq] at h ⊢
    rw [← h]; ring
  | false =>
    by_cases h0 : L = 0
    · simp [resolution, h0] at h
    simp only [resolution, h0, if_false, Bool.false_eq_true, Option.some.injEq] at h ⊢
    rw [← h]; ring

/-- **C121** the smallest bump is never smaller than `4/π` times the half wavelength of the next degree -/
theorem cap_wave (L : ℕ) (R a b : ℝ) (hR : 0 < R) (ha : resolution L R true = some a)
    (hb : resolution (L + 1) R false = some b) : 4 / Real.pi * b ≤ a := by
  simp only [resolution, if_true, Option.some.injEq] at ha
  simp only [resolution, Nat.succ_ne_zero, if_false, Bool.false_eq_true, Option.some.injEq] at hb
  obtain ⟨h1, h2⟩ := inv_mem L
  have hs : (1 : ℝ) / (L + 1) ≤ Real.arcsin (1 / (L + 1)) := by
    have := Real.sin_le (Real.arcsin_nonneg.2 h1.le)
    rwa [Real.sin_arcsin (by linarith) h2] at this
  have hp := Real.pi_pos
  have e : 4 / Real.pi * b = 4 * R * (1 / (L + 1)) := by
    rw [← hb]; push_cast; field_simp
  rw [e, ← ha]
  exact mul_le_mul_of_nonneg_left hs (by positivity)

/-- **C121** what the program prints: the degrees in order with their lengths, up to the first degree zero when the half
wavelength is asked for -/
theorem run_spec (R : ℝ) (cap : Bool) (ls : List ℕ) :
    (run R cap ls).1.map Prod.fst = (if cap then ls else ls.takeWhile (· ≠ 0)) ∧
      ((run R cap ls).2 = true ↔ cap = true ∨ 0 ∉ ls) ∧
      ∀ p ∈ (run R cap ls).1, resolution p.1 R cap = some p.2 := by
  induction ls with
  | nil => simp [run]
  | cons l ls ih =>
    obtain ⟨i1, i2, i3⟩ := ih
    cases cap with
    | true =>
      have e : resolution l R true = some (4 * R * Real.arcsin (1 / (l + 1))) := by simp [resolution]
      simp only [run, e]
      simp only [if_true] at i1 ⊢
      refine ⟨by simp [i1], by simpa using i2, ?_⟩
      intro p hp
      rcases List.mem_cons.1 hp with rfl | hp
      exacts [e, i3 p hp]
    | false =>
      by_cases h0 : l = 0
      · subst h0
        simp [run, resolution]
      have e : resolution l R false = some (Real.pi * R / l) := by simp [resolution, h0]
      simp only [run, e]
      simp only [Bool.false_eq_true, if_false, false_or] at i1 i2 ⊢
      refine ⟨by simp [i1, h0], by rw [i2]; simp [Ne.symm h0], ?_⟩
      intro p hp
      rcases List.mem_cons.1 hp with rfl | hp
      exacts [e, i3 p hp]

example : ∃ a b, resolution 60 6371 true = some a ∧ resolution 96 6371 true = some b ∧ 0 < b ∧ b < a := by
  obtain ⟨a, ha, -⟩ := resolution_cap 60 6371 (by norm_num)
  obtain ⟨b, hb, -⟩ := resolution_cap 96 6371 (by norm_num)
  exact ⟨a, b, ha, hb, resolution_decreasing true 60 96 6371 a b (by norm_num) (by norm_num) ha hb⟩

/-! ## The seasonal geocenter -/

/-- a sum of an annual and a semi-annual oscillation about zero, without its mean over the dates -/
def Seasonal {n : ℕ} (s : Season) (scale : ℝ) (t c : Ser n) : Prop :=
  ∃ m, (∀ i, c i = scale * (s.at (t i) - m)) ∧ ∑ i, c i = 0

theorem center_seasonal {n : ℕ} (hn : n ≠ 0) (s : Season) (k : ℝ) (t : Ser n) :
    Seasonal s k t (fun i => k * center (fun j => s.at (t j)) i) := by
  refine ⟨(∑ j, s.at (t j)) / n, fun i => rfl, ?_⟩
  have : (n : ℝ) ≠ 0 := by exact_mod_cast hn
  rw [← Finset.mul_sum]
  unfold center
  rw [Finset.sum_sub_distrib, Finset.sum_const, Finset.card_univ, Fintype.card_fin, nsmul_eq_mul]
  have : (n : ℝ) * ((∑ j, s.at (t j)) / n) = ∑ j, s.at (t j) := by field_simp
  rw [this]; ring

/-- **C121** the coefficients of the seasonal geocenter are the components divided by the radius and the square root of
three, each without its mean over the dates -/
theorem seasonal_spec {n : ℕ} (hn : n ≠ 0) (t : Ser n) : ∃ g a b c, seasonal t = some g ∧ g.coef = ⟨some a, some b, some c⟩ ∧
    Seasonal seasonZ (1 / (defaultRadius * Real.sqrt 3)) t a ∧ Seasonal seasonX (1 / (defaultRadius * Real.sqrt 3)) t b ∧
    Seasonal seasonY (1 / (defaultRadius * Real.sqrt 3)) t c := by
  refine ⟨_, _, _, _, rfl, rfl, ?_, ?_, ?_⟩
  · convert center_seasonal hn seasonZ _ t using 2; ring
  · convert center_seasonal hn seasonX _ t using 2; ring
  · convert center_seasonal hn seasonY _ t using 2; ring

theorem at_period (s : Season) (t : ℝ) (k : ℤ) : s.at (t + k) = s.at t := by
  unfold Season.at
  have e1 : 2 * Real.pi * (t + k) + s.annualPhase * Real.pi / 180 = 2 * Real.pi * t + s.annualPhase * Real.pi / 180 + k * (2 * Real.pi) := by
    ring
  have e2 : 4 * Real.pi * (t + k) + s.semiPhase * Real.pi / 180 =
      4 * Real.pi * t + s.semiPhase * Real.pi / 180 + (2 * k : ℤ) * (2 * Real.pi) := by
    push_cast; ring
  rw [e1, e2, Real.sin_add_int_mul_two_pi, Real.sin_add_int_mul_two_pi]

/-- **C121** it depends on the time of the year only: dates may be moved by whole years, each by its own number -/
theorem seasonal_period {n : ℕ} (t : Ser n) (k : Fin n → ℤ) : seasonal (fun i => t i + k i) = seasonal t := by
  unfold seasonal
  simp only [at_period]

/-- **C121** the components in millimetres stay within twice the sum of the amplitudes -/
theorem seasonal_bound {n : ℕ} (s : Season) (h1 : 0 ≤ s.annual) (h2 : 0 ≤ s.semi) (t : Ser n) (i : Fin n) :
    |center (fun j => s.at (t j)) i| ≤ 2 * (s.annual + s.semi) := by
  have hb : ∀ x, |s.at x| ≤ s.annual + s.semi := by
    intro x
    unfold Season.at
    refine (abs_add_le _ _).trans ?_
    rw [abs_mul, abs_mul, abs_of_nonneg h1, abs_of_nonneg h2]
    have := mul_le_mul_of_nonneg_left (Real.abs_sin_le_one (2 * Real.pi * x + s.annualPhase * Real.pi / 180)) h1
    have := mul_le_mul_of_nonneg_left (Real.abs_sin_le_one (4 * Real.pi * x + s.semiPhase * Real.pi / 180)) h2
    linarith
  have hn : (0 : ℝ) < n := by
    have := i.pos
    exact_mod_cast this
  have hm : |(∑ j, s.at (t j)) / n| ≤ s.annual + s.semi := by
    rw [abs_div, abs_of_pos hn, div_le_iff₀ hn]
    refine (Finset.abs_sum_le_sum_abs _ _).trans ?_
    refine (Finset.sum_le_sum fun j _ => hb (t j)).trans ?_
    rw [Finset.sum_const, Finset.card_univ, Fintype.card_fin, nsmul_eq_mul]
    exact le_of_eq (by ring)
  unfold center
  refine (abs_sub _ _).trans ?_
  have := hb (t i)
  linarith

example : ∃ g a b c, seasonal (fun i : Fin 12 => 2005 + (i : ℝ) / 12) = some g ∧ g.coef = ⟨some a, some b, some c⟩ ∧
    Seasonal seasonZ (1 / (defaultRadius * Real.sqrt 3)) (fun i : Fin 12 => 2005 + (i : ℝ) / 12) a := by
  obtain ⟨g, a, b, c, h1, h2, h3, -, -⟩ := seasonal_spec (n := 12) (by norm_num) fun i => 2005 + (i : ℝ) / 12
  exact ⟨g, a, b, c, h1, h2, h3⟩

end Verif.Resolution
