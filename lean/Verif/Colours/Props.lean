import Verif.Colours.Spec
import Mathlib.Tactic.FieldSimp
import Mathlib.Tactic.Positivity
import Mathlib.Tactic.Ring
import Mathlib.Tactic.IntervalCases
/-!
# C115: colours
-/
namespace Verif.Colours

theorem trunc_nonneg (x : ℚ) (h : 0 ≤ x) : trunc x = ⌊x⌋ := by unfold trunc; rw [if_pos h]

/-- C115: `hsv_to_rgb` gives the colour of the wheel, for every hue from zero on (hues of 1 and more go around again), every
saturation and value. -/
theorem hsv_spec (h s v : ℚ) (hh : 0 ≤ h) : IsHsv h s v (hsvToRgb h s v) := by
  have h6 : 0 ≤ h * 6 := by linarith
  set i := ⌊h * 6⌋ with hi
  have hi0 : 0 ≤ i := Int.floor_nonneg.2 h6
  have hf0 : 0 ≤ h * 6 - (i : ℚ) := by have := Int.floor_le (h * 6); rw [← hi] at this; linarith
  have hf1 : h * 6 - (i : ℚ) ≤ 1 := by have := Int.lt_floor_add_one (h * 6); rw [← hi] at this; linarith
  obtain ⟨m, hm⟩ : ∃ m : ℕ, i = (m : ℤ) := ⟨i.toNat, by omega⟩
  have hdiv : m = 6 * (m / 6) + m % 6 := by omega
  refine ⟨m / 6, m % 6, h * 6 - (i : ℚ), Nat.mod_lt _ (by norm_num), hf0, hf1, ?_, ?_⟩
  · rw [hm]
    have : (m : ℚ) = 6 * ((m / 6 : ℕ) : ℚ) + ((m % 6 : ℕ) : ℚ) := by
      have := congrArg (fun x : ℕ => (x : ℚ)) hdiv
      simpa only [Nat.cast_add, Nat.cast_mul, Nat.cast_ofNat] using this
    rw [Int.cast_natCast, ← add_sub_assoc, ← this]; ring
  · unfold hsvToRgb
    by_cases hs : s = 0
    · rw [if_pos hs, hs]; simp [shade]
    · rw [if_neg hs]
      simp only [trunc_nonneg _ h6, ← hi]
      have hmod : i % 6 = ((m % 6 : ℕ) : ℤ) := by rw [hm]; rfl
      rw [hmod]
      have hlt : m % 6 < 6 := Nat.mod_lt _ (by norm_num)
      generalize h * 6 - (i : ℚ) = f
      generalize m % 6 = k at hlt ⊢
      interval_cases k <;> simp [wheel, mix, shade] <;> ring_nf <;> simp

theorem mix_zero (a b : Triple) : mix 0 a b = a := by simp [mix]
theorem mix_one (a b : Triple) : mix 1 a b = b := by simp [mix]

/-- the wheel fixes the colour -/
theorem isHsv_unique (h s v : ℚ) (c d : Triple) (h1 : IsHsv h s v c) (h2 : IsHsv h s v d) : c = d := by
  obtain ⟨n, k, f, hk, f0, f1, he, rfl⟩ := h1
  obtain ⟨n', k', f', hk', f0', f1', he', rfl⟩ := h2
  have key : 6 * (n : ℚ) + k + f = 6 * (n' : ℚ) + k' + f' := by rw [← he, ← he']
  have hlo : (6 * n + k : ℤ) ≤ 6 * n' + k' + 1 := by
    have : (6 * (n : ℚ) + k) ≤ 6 * (n' : ℚ) + k' + 1 := by linarith
    exact_mod_cast this
  have hhi : (6 * n' + k' : ℤ) ≤ 6 * n + k + 1 := by
    have : (6 * (n' : ℚ) + k') ≤ 6 * (n : ℚ) + k + 1 := by linarith
    exact_mod_cast this
  rcases (by omega : 6 * n + k = 6 * n' + k' ∨ 6 * n + k = 6 * n' + k' + 1 ∨ 6 * n' + k' = 6 * n + k + 1) with e | e | e
  · have hkk : k = k' := by omega
    have hnn : n = n' := by omega
    subst hkk; subst hnn
    have : f = f' := by linarith
    rw [this]
  · have e' : 6 * (n : ℚ) + k = 6 * (n' : ℚ) + k' + 1 := by exact_mod_cast e
    have a1 : f = 0 := by linarith
    have a2 : f' = 1 := by linarith
    rw [a1, a2, mix_zero, mix_one]
    congr 1
    rcases Nat.lt_or_ge k' 5 with h5 | h5
    · rw [show k = k' + 1 by omega]
    · rw [show k' = 5 by omega, show k = 0 by omega]; rfl
  · have e' : 6 * (n' : ℚ) + k' = 6 * (n : ℚ) + k + 1 := by exact_mod_cast e
    have a1 : f = 1 := by linarith
    have a2 : f' = 0 := by linarith
    rw [a1, a2, mix_zero, mix_one]
    congr 1
    rcases Nat.lt_or_ge k 5 with h5 | h5
    · rw [show k' = k + 1 by omega]
    · rw [show k = 5 by omega, show k' = 0 by omega]; rfl

/-- C115: with saturation and value between 0 and 1 the components are between 0 and 1, for every hue from zero on. -/
theorem isHsv_unit (h s v : ℚ) (c : Triple) (hc : IsHsv h s v c) (hs : 0 ≤ s ∧ s ≤ 1) (hv : 0 ≤ v ∧ v ≤ 1) : InUnit c := by
  obtain ⟨n, k, f, hk, f0, f1, -, rfl⟩ := hc
  have comp : ∀ x : ℚ, 0 ≤ x → x ≤ 1 → 0 ≤ v * (1 - s + s * x) ∧ v * (1 - s + s * x) ≤ 1 := by
    intro x x0 x1
    have a0 : 0 ≤ 1 - s + s * x := by nlinarith [mul_nonneg hs.1 x0]
    have a1 : 1 - s + s * x ≤ 1 := by nlinarith [mul_nonneg hs.1 (sub_nonneg.2 x1)]
    exact ⟨mul_nonneg hv.1 a0, by nlinarith⟩
  have hm : ∀ a b : ℚ, 0 ≤ a → a ≤ 1 → 0 ≤ b → b ≤ 1 → 0 ≤ (1 - f) * a + f * b ∧ (1 - f) * a + f * b ≤ 1 := by
    intro a b a0 a1 b0 b1
    constructor
    · nlinarith [mul_nonneg (sub_nonneg.2 f1) a0, mul_nonneg f0 b0]
    · nlinarith [mul_nonneg (sub_nonneg.2 f1) (sub_nonneg.2 a1), mul_nonneg f0 (sub_nonneg.2 b1)]
  have hw : ∀ j, InUnit (wheel j) := by
    intro j
    rcases j with _ | _ | _ | _ | _ | _ | j
    iterate 6 (· norm_num [wheel, InUnit])
    · rw [show wheel (j + 1 + 1 + 1 + 1 + 1 + 1) = (1, 0, 0) from rfl]
      norm_num [InUnit]
  obtain ⟨⟨p1, p2⟩, ⟨p3, p4⟩, p5, p6⟩ := hw k
  obtain ⟨⟨q1, q2⟩, ⟨q3, q4⟩, q5, q6⟩ := hw (k + 1)
  have r1 := hm _ _ p1 p2 q1 q2
  have r2 := hm _ _ p3 p4 q3 q4
  have r3 := hm _ _ p5 p6 q5 q6
  exact ⟨comp _ r1.1 r1.2, comp _ r2.1 r2.2, comp _ r3.1 r3.2⟩

/-- C115 (negative): a negative hue, which a table in HSV may have, gives components outside the range of colours. -/
theorem hsv_negative : ¬ InUnit (hsvToRgb (-1 / 12) 1 1) := by
  have : hsvToRgb (-1 / 12) 1 1 = (1, -1 / 2, 0) := by decide +kernel
  rw [this]
  norm_num [InUnit]

theorem fract_of (x : ℚ) (n : ℤ) (h0 : (n : ℚ) ≤ x) (h1 : x < n + 1) : Int.fract x = x - n := by
  unfold Int.fract
  rw [Int.floor_eq_iff.2 ⟨h0, h1⟩]

theorem rgb_eq (r g b v p x : ℚ) (n : ℤ) (hmax : max (max r g) b = v) (hmin : min (min r g) b = p) (hne : p ≠ v)
    (hx : (if r = v then (v - b) / (v - p) - (v - g) / (v - p) else if g = v then 2 + (v - r) / (v - p) - (v - b) / (v - p)
      else 4 + (v - g) / (v - p) - (v - r) / (v - p)) = x) (h0 : (n : ℚ) ≤ x / 6) (h1 : x / 6 < n + 1) :
    rgbToHsv r g b = (x / 6 - n, (v - p) / v, v) := by
  unfold rgbToHsv
  rw [hmax, hmin]
  simp only [if_neg hne, hx]
  rw [fract_of _ n h0 h1]

/-- C115: hue, saturation and value of the colour that was made of them are found again. -/
theorem hsv_round_trip (h s v : ℚ) (h0 : 0 ≤ h) (h1 : h < 1) (s0 : 0 < s) (v0 : 0 < v) :
    rgbToHsv (hsvToRgb h s v).1 (hsvToRgb h s v).2.1 (hsvToRgb h s v).2.2 = (h, s, v) := by
  have h6 : 0 ≤ h * 6 := by linarith
  set i := ⌊h * 6⌋ with hi
  have hi0 : 0 ≤ i := Int.floor_nonneg.2 h6
  have hi6 : i < 6 := Int.floor_lt.2 (by push_cast; linarith)
  have hf0 : 0 ≤ h * 6 - (i : ℚ) := by have := Int.floor_le (h * 6); rw [← hi] at this; linarith
  have hf1 : h * 6 - (i : ℚ) < 1 := by have := Int.lt_floor_add_one (h * 6); rw [← hi] at this; linarith
  unfold hsvToRgb
  rw [if_neg s0.ne']
  simp only [trunc_nonneg _ h6, ← hi]
  have hmod : i % 6 = i := Int.emod_eq_of_lt hi0 hi6
  rw [hmod]
  obtain ⟨f, hf⟩ : ∃ f, f = h * 6 - (i : ℚ) := ⟨_, rfl⟩
  rw [← hf] at hf0 hf1 ⊢
  have hh : h = ((i : ℚ) + f) / 6 := by rw [hf]; ring
  have hvs : 0 < v * s := mul_pos v0 s0
  have vs0 : v * s ≠ 0 := hvs.ne'
  have a1 : v * (1 - s) < v := by nlinarith
  have a2 : v * (1 - s * f) ≤ v := by nlinarith [mul_nonneg hvs.le hf0]
  have a3 : v * (1 - s) < v * (1 - s * f) := by nlinarith [mul_pos hvs (sub_pos.2 hf1)]
  have a4 : v * (1 - s * (1 - f)) < v := by nlinarith [mul_pos hvs (sub_pos.2 hf1)]
  have a5 : v * (1 - s) ≤ v * (1 - s * (1 - f)) := by nlinarith [mul_nonneg hvs.le hf0]
  have d1 : v - v * (1 - s) = v * s := by ring
  have d2 : v - v * (1 - s * f) = v * s * f := by ring
  have d3 : v - v * (1 - s * (1 - f)) = v * s * (1 - f) := by ring
  have q1 : v * s / v = s := by field_simp
  have q2 : v * s * f / (v * s) = f := by field_simp
  have q3 : v * s * (1 - f) / (v * s) = 1 - f := by field_simp
  have q4 : v * s / (v * s) = 1 := div_self vs0
  generalize hP : v * (1 - s) = P at *
  generalize hQ : v * (1 - s * f) = Q at *
  generalize hT : v * (1 - s * (1 - f)) = T at *
  have hz : Q = v → f = 0 := by
    intro hz
    have : v * s * f = 0 := by rw [← d2, hz]; ring
    exact (mul_eq_zero.1 this).resolve_left vs0
  have e1 : (v - P) / (v - P) = 1 := by rw [d1]; exact q4
  have e2 : (v - Q) / (v - P) = f := by rw [d1, d2]; exact q2
  have e3 : (v - T) / (v - P) = 1 - f := by rw [d1, d3]; exact q3
  have e4 : (v - v) / (v - P) = 0 := by simp
  have e5 : (v - P) / v = s := by rw [d1]; exact q1
  have hcases : i = 0 ∨ i = 1 ∨ i = 2 ∨ i = 3 ∨ i = 4 ∨ i = 5 := by omega
  rcases hcases with e | e | e | e | e | e
  · rw [e]; rw [e] at hh; push_cast at hh
    rw [if_pos rfl]
    rw [rgb_eq v T P v P f 0 (by rw [max_eq_left a4.le, max_eq_left a1.le]) (by rw [min_eq_right a4.le, min_eq_right a5]) a1.ne
      (by rw [if_pos rfl, e1, e3]; ring) (by push_cast; linarith) (by push_cast; linarith), e5, hh]
    norm_num
  · rw [e]; rw [e] at hh; push_cast at hh
    rw [if_neg (by norm_num), if_pos rfl]
    rw [rgb_eq Q v P v P (1 + f) 0 (by rw [max_eq_right a2, max_eq_left a1.le]) (by rw [min_eq_left a2, min_eq_right a3.le]) a1.ne
      (by
        by_cases h' : Q = v
        · rw [if_pos h', e1, e4, hz h']; ring
        · rw [if_neg h', if_pos rfl, e2, e1]; ring) (by push_cast; linarith) (by push_cast; linarith), e5, hh]
    norm_num
  · rw [e]; rw [e] at hh; push_cast at hh
    rw [if_neg (by norm_num), if_neg (by norm_num), if_pos rfl]
    rw [rgb_eq P v T v P (2 + f) 0 (by rw [max_eq_right a1.le, max_eq_left a4.le]) (by rw [min_eq_left a1.le, min_eq_left a5]) a1.ne
      (by rw [if_neg a1.ne, if_pos rfl, e1, e3]; ring) (by push_cast; linarith) (by push_cast; linarith), e5, hh]
    norm_num
  · rw [e]; rw [e] at hh; push_cast at hh
    rw [if_neg (by norm_num), if_neg (by norm_num), if_neg (by norm_num), if_pos rfl]
    rw [rgb_eq P Q v v P (3 + f) 0 (by rw [max_eq_right a3.le, max_eq_right a2]) (by rw [min_eq_left a3.le, min_eq_left a1.le]) a1.ne
      (by
        rw [if_neg a1.ne]
        by_cases h' : Q = v
        · rw [if_pos h', e1, e4, hz h']; ring
        · rw [if_neg h', e2, e1]; ring) (by push_cast; linarith) (by push_cast; linarith), e5, hh]
    norm_num
  · rw [e]; rw [e] at hh; push_cast at hh
    rw [if_neg (by norm_num), if_neg (by norm_num), if_neg (by norm_num), if_neg (by norm_num), if_pos rfl]
    rw [rgb_eq T P v v P (4 + f) 0 (by rw [max_eq_left a5, max_eq_right a4.le]) (by rw [min_eq_right a5, min_eq_left a1.le]) a1.ne
      (by rw [if_neg a4.ne, if_neg a1.ne, e1, e3]; ring) (by push_cast; linarith) (by push_cast; linarith), e5, hh]
    norm_num
  · rw [e]; rw [e] at hh; push_cast at hh
    rw [if_neg (by norm_num), if_neg (by norm_num), if_neg (by norm_num), if_neg (by norm_num), if_neg (by norm_num)]
    rw [rgb_eq v P Q v P (f - 1) (-1) (by rw [max_eq_left a1.le, max_eq_left a2]) (by rw [min_eq_right a1.le, min_eq_left a3.le]) a1.ne
      (by rw [if_pos rfl, e1, e2]) (by push_cast; linarith) (by push_cast; linarith), e5, hh]
    refine Prod.ext ?_ rfl
    push_cast; ring

example : rgbToHsv (hsvToRgb (7 / 12) (1 / 2) (3 / 4)).1 (hsvToRgb (7 / 12) (1 / 2) (3 / 4)).2.1 (hsvToRgb (7 / 12) (1 / 2) (3 / 4)).2.2 =
    (7 / 12, 1 / 2, 3 / 4) := by decide +kernel
example : hsvToRgb (1 / 3) 1 1 = (0, 1, 0) ∧ hsvToRgb (5 / 12) (1 / 2) 1 = (1 / 2, 1, 3 / 4) ∧ hsvToRgb 1 1 1 = (1, 0, 0) := by decide +kernel

end Verif.Colours
