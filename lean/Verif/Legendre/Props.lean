import Verif.Legendre.Mohlenkamp
import Mathlib.Analysis.SpecialFunctions.Trigonometric.Deriv
import Mathlib.Analysis.SpecialFunctions.Trigonometric.Basic
import Mathlib.Analysis.Calculus.Deriv.Polynomial
import Mathlib.Analysis.Calculus.Deriv.Pow
import Mathlib.Analysis.Calculus.Deriv.Mul
import Mathlib.Analysis.Calculus.Deriv.Comp

/-!
# Properties C30-C33: Legendre functions

`Plm l m x u` (`Verif.Legendre.Spec`) is the specification: Rodrigues' formula, derivatives of the
polynomial, geodetic normalisation and the factor `u^m`, with `u` the sine of colatitude.
-/
namespace Verif.Legendre
open Nat

/-- the sine of colatitude the code uses is the true one strictly between the poles -/
theorem codeU_interior (eps x : ℝ) (hx : x ^ 2 < 1) : codeU eps x = Real.sqrt (1 - x ^ 2) := by
  unfold codeU
  rw [if_neg]
  exact (Real.sqrt_pos.2 (by linarith)).ne'

theorem codeU_pole (eps x : ℝ) (hx : x ^ 2 = 1) : codeU eps x = eps := by
  unfold codeU; rw [if_pos]; rw [hx]; simp

/-- C30: `plm_colombo` returns the fully normalised associated Legendre functions for every `x`
strictly between the poles, every degree to `LMAX` and every order -/
theorem colombo_correct (eps : ℝ) (LMAX : ℕ) (hL : 1 ≤ LMAX) (x : ℝ) (hx : x ^ 2 < 1) :
    ∃ s, colombo eps LMAX x = some s ∧
      ∀ l ≤ LMAX, ∀ m, s.p l m = Plm l m x (Real.sqrt (1 - x ^ 2)) := by
  obtain ⟨s, hs, hg⟩ := colombo_closed eps LMAX hL x
  refine ⟨s, hs, fun l hl m => ?_⟩
  rw [(hg l m).1, if_pos (by omega), codeU_interior eps x hx]

/-- non-vacuity: `x = 1/2`, degree 2 order 1 -/
example : ∃ s, colombo (1 / 2 ^ 52) 2 (1 / 2) = some s ∧
    s.p 2 1 = Plm 2 1 (1 / 2) (Real.sqrt (1 - (1 / 2) ^ 2)) := by
  obtain ⟨s, hs, h⟩ := colombo_correct (1 / 2 ^ 52) 2 (by norm_num) (1 / 2) (by norm_num)
  exact ⟨s, hs, h 2 le_rfl 1⟩

/-- C30: above the diagonal the entries are zero -/
theorem colombo_above_diagonal (eps : ℝ) (LMAX : ℕ) (hL : 1 ≤ LMAX) (x : ℝ) :
    ∃ s, colombo eps LMAX x = some s ∧ ∀ l m, l < m → s.p l m = 0 ∧ s.d l m = 0 := by
  obtain ⟨s, hs, hg⟩ := colombo_closed eps LMAX hL x
  refine ⟨s, hs, fun l m hlm => ?_⟩
  rw [(hg l m).1, (hg l m).2, Plm_zero_of_lt l m hlm, Dlm, if_pos hlm]
  simp

/-- C30: at the poles order 0 is right (it does not involve `u`) and order `m` carries `eps^m` in
place of the true factor 0 -/
theorem colombo_pole (eps : ℝ) (LMAX : ℕ) (hL : 1 ≤ LMAX) (x : ℝ) (hx : x ^ 2 = 1) :
    ∃ s, colombo eps LMAX x = some s ∧ ∀ l ≤ LMAX,
      s.p l 0 = Plm l 0 x 0 ∧
      ∀ m, s.p l m = nrm l m * eps ^ m * dLeg l m x := by
  obtain ⟨s, hs, hg⟩ := colombo_closed eps LMAX hL x
  refine ⟨s, hs, fun l hl => ⟨?_, fun m => ?_⟩⟩
  · rw [(hg l 0).1, if_pos (by omega), Plm_order_zero l x 0, Plm_order_zero]
  · rw [(hg l m).1, if_pos (by omega), codeU_pole eps x hx]; rfl

/-- C30: the pole values of positive order are not zero, although the true functions vanish there:
degree 1, order 1 at the north pole is `sqrt(3) eps` -/
theorem colombo_pole_deviation (eps : ℝ) (heps : eps ≠ 0) :
    ∃ s, colombo eps 1 1 = some s ∧ Plm 1 1 1 0 = 0 ∧ s.p 1 1 ≠ 0 := by
  obtain ⟨s, hs, h⟩ := colombo_pole eps 1 le_rfl 1 (by norm_num)
  refine ⟨s, hs, by simp [Plm_one_one], ?_⟩
  rw [(h 1 le_rfl).2 1]
  have : nrm 1 1 * eps ^ 1 * dLeg 1 1 1 = Plm 1 1 1 eps := rfl
  rw [this, Plm_one_one]
  exact mul_ne_zero (by positivity) heps

/-- C30: degree 0 alone cannot be requested -/
theorem colombo_LMAX_zero (eps x : ℝ) : colombo eps 0 x = none := rfl

/-- C31: `plm_holmes` returns the same functions; the scale factor cancels exactly -/
theorem holmes_correct (eps scalef : ℝ) (hs : scalef ≠ 0) (LMAX : ℕ) (hL : 2 ≤ LMAX) (x : ℝ)
    (hx : x ^ 2 < 1) :
    ∃ s, holmes eps scalef LMAX x = some s ∧
      ∀ l ≤ LMAX, ∀ m, s.p l m = Plm l m x (Real.sqrt (1 - x ^ 2)) := by
  obtain ⟨s, hs, hg⟩ := holmes_closed eps scalef hs LMAX hL x
  refine ⟨s, hs, fun l hl m => ?_⟩
  rw [(hg l m).1, if_pos (by omega), codeU_interior eps x hx]

/-- C31: `plm_mohlenkamp` returns the same functions for all orders to `MMAX` -/
theorem mohlenkamp_correct (eps : ℝ) (LMAX MMAX : ℕ) (x : ℝ) (hx : x ^ 2 < 1) (l m : ℕ)
    (hl : l ≤ LMAX) (hm : m ≤ MMAX) :
    (mohlenkamp eps LMAX MMAX x).p l m = Plm l m x (Real.sqrt (1 - x ^ 2)) := by
  rw [(mohlenkamp_closed eps LMAX MMAX x l m).1, if_pos ⟨hm, hl⟩, codeU_interior eps x hx]

/-- C31: the three routines agree in both outputs for every `x`, poles included, wherever all three
return (degree at least 2), for orders to `MMAX` -/
theorem algorithms_agree (eps scalef : ℝ) (hs : scalef ≠ 0) (LMAX MMAX : ℕ) (hL : 2 ≤ LMAX) (x : ℝ) :
    ∃ c h, colombo eps LMAX x = some c ∧ holmes eps scalef LMAX x = some h ∧
      ∀ l m, h.p l m = c.p l m ∧ h.d l m = c.d l m ∧
        (m ≤ MMAX → (mohlenkamp eps LMAX MMAX x).p l m = c.p l m ∧
          (mohlenkamp eps LMAX MMAX x).d l m = c.d l m) := by
  obtain ⟨c, hc, hcg⟩ := colombo_closed eps LMAX (by omega) x
  obtain ⟨h, hh, hhg⟩ := holmes_closed eps scalef hs LMAX hL x
  refine ⟨c, h, hc, hh, fun l m => ⟨?_, ?_, fun hm => ?_⟩⟩
  · rw [(hcg l m).1, (hhg l m).1]
  · rw [(hcg l m).2, (hhg l m).2]
  · have := mohlenkamp_closed eps LMAX MMAX x l m
    rw [this.1, this.2, (hcg l m).1, (hcg l m).2]
    by_cases d : l ≤ LMAX
    · have hd : l < LMAX + 1 ∨ l = LMAX + 1 ∧ m < 0 := by omega
      rw [if_pos (show m ≤ MMAX ∧ l ≤ LMAX from ⟨hm, d⟩), if_pos (show m ≤ MMAX ∧ l ≤ LMAX from ⟨hm, d⟩), if_pos hd, if_pos hd]
      exact ⟨rfl, rfl⟩
    · rw [if_neg (by omega), if_neg (by omega), if_neg (by omega), if_neg (by omega)]
      exact ⟨rfl, rfl⟩

/-- non-vacuity of C31: the code's own scale factor, degree 60, `x = -1/3` -/
example : ∃ h, holmes (1 / 2 ^ 52) (1 / 10 ^ 280) 60 (-1 / 3) = some h ∧
    h.p 60 30 = Plm 60 30 (-1 / 3) (Real.sqrt (1 - (-1 / 3) ^ 2)) := by
  obtain ⟨h, hh, hv⟩ := holmes_correct (1 / 2 ^ 52) (1 / 10 ^ 280) (by positivity) 60 (by norm_num) (-1 / 3)
    (by norm_num)
  exact ⟨h, hh, hv 60 le_rfl 30⟩

/-- C31: `plm_holmes` does not return for degrees below 2, where `plm_mohlenkamp` does -/
theorem holmes_low_degree (eps scalef : ℝ) (LMAX : ℕ) (h : LMAX < 2) (x : ℝ) :
    holmes eps scalef LMAX x = none := if_pos h

/-! ## C32: derivatives -/

theorem flm_nrm (l m : ℕ) (h : m < l) : flm l m * nrm (l - 1) m = (l + m) * nrm l m := by
  obtain ⟨j, rfl⟩ : ∃ j, l = m + (j + 1) := ⟨l - m - 1, by omega⟩
  rw [show m + (j + 1) - 1 = m + j by omega, nrm_add, nrm_add]
  unfold flm
  have hd := dlt_pos m
  have hm := (m.cast_nonneg : (0:ℝ) ≤ m)
  have hj := (j.cast_nonneg : (0:ℝ) ≤ j)
  have e1 : (2 * ((m + (j + 1) : ℕ) : ℝ) - 1) = 2 * (m + j) + 1 := by push_cast; ring
  have e2 : (((m + (j + 1) : ℕ) : ℝ) ^ 2 - (m : ℝ) ^ 2) = (j + 1) * (2 * m + j + 1) := by push_cast; ring
  rw [e1, e2]
  apply sqrt_mul_eq
  · positivity
  · positivity
  · rw [show 2 * m + (j + 1) = 2 * m + j + 1 by ring, factorial_succ (2 * m + j), factorial_succ j]
    push_cast
    have hf : ((2 * m + j)! : ℝ) ≠ 0 := by positivity
    have h6 : (2 * (m : ℝ) + j + 1) ≠ 0 := by positivity
    have h7 : (2 * ((m : ℝ) + j) + 1) ≠ 0 := by positivity
    field_simp
    ring

/-- the colatitude derivative of the specified function -/
theorem Plm_hasDerivAt (l m : ℕ) (t : ℝ) (ht : Real.sin t ≠ 0) :
    HasDerivAt (fun t => Plm l m (Real.cos t) (Real.sin t)) (Dlm (Real.cos t) (Real.sin t) l m) t := by
  have hD : HasDerivAt (fun y => dLeg l m y) (dLeg l (m + 1) (Real.cos t)) (Real.cos t) := by
    have := (Polynomial.derivative^[m] (legendreP l)).hasDerivAt (Real.cos t)
    rw [← Function.iterate_succ_apply' (f := ⇑Polynomial.derivative)] at this
    exact this
  have h1 := ((Real.hasDerivAt_sin t).pow m).const_mul (nrm l m)
  have h2 := hD.comp t (Real.hasDerivAt_cos t)
  have h3 := h1.mul h2
  have he : (fun t => Plm l m (Real.cos t) (Real.sin t)) =
      (fun t => nrm l m * (Real.sin ^ m) t) * ((fun y => dLeg l m y) ∘ Real.cos) := by
    funext t; rfl
  rw [he]
  refine h3.congr_deriv ?_
  simp only [Function.comp_apply, Pi.pow_apply]
  set x := Real.cos t
  set u := Real.sin t
  have hux : u ^ 2 = 1 - x ^ 2 := by
    have := Real.sin_sq_add_cos_sq t; linarith
  have hpow : (m : ℝ) * u ^ (m - 1) * u = m * u ^ m := by
    cases m with
    | zero => simp
    | succ k => rw [Nat.add_sub_cancel, pow_succ]; ring
  unfold Dlm
  by_cases c : l < m
  · rw [if_pos c, dLeg_zero_of_lt l m c, dLeg_zero_of_lt l (m + 1) (by omega)]; simp
  rw [if_neg c]
  by_cases d : l = m
  · rw [if_pos d, dLeg_zero_of_lt l (m + 1) (by omega)]
    unfold Plm
    field_simp
    linear_combination (nrm l m * dLeg l m x * x) * hpow
  · rw [if_neg d]
    have hf := flm_nrm l m (by omega)
    obtain ⟨k, rfl⟩ : ∃ k, l = k + 1 := ⟨l - 1, by omega⟩
    rw [Nat.add_sub_cancel] at *
    have hr := dLeg_deriv k m x
    unfold Plm
    push_cast at *
    field_simp
    linear_combination (nrm (k + 1) m * dLeg (k + 1) m x * x) * hpow +
      (u ^ m * dLeg k m x) * hf + (nrm (k + 1) m * u ^ m) * hr -
      (nrm (k + 1) m * u ^ m * dLeg (k + 1) (m + 1) x) * hux

/-- C32: the second output of `plm_colombo` is the derivative of the first with respect to
colatitude, at every colatitude strictly between 0 and pi -/
theorem colombo_derivative (eps : ℝ) (LMAX : ℕ) (hL : 1 ≤ LMAX) (t : ℝ) (h0 : 0 < t)
    (hp : t < Real.pi) (l m : ℕ) (hl : l ≤ LMAX) :
    ∃ s, colombo eps LMAX (Real.cos t) = some s ∧
      HasDerivAt (fun t => ((colombo eps LMAX (Real.cos t)).map fun s => s.p l m).getD 0) (s.d l m) t := by
  have hs := Real.sin_pos_of_pos_of_lt_pi h0 hp
  have hU : ∀ t, 0 < t → t < Real.pi → codeU eps (Real.cos t) = Real.sin t := by
    intro t h0 hp
    have hs := Real.sin_pos_of_pos_of_lt_pi h0 hp
    have hh := Real.sin_sq_add_cos_sq t
    rw [codeU_interior _ _ (by nlinarith), show 1 - Real.cos t ^ 2 = Real.sin t ^ 2 by linarith, Real.sqrt_sq hs.le]
  obtain ⟨s, hc, hg⟩ := colombo_closed eps LMAX hL (Real.cos t)
  refine ⟨s, hc, ?_⟩
  rw [(hg l m).2, if_pos (by omega), hU t h0 hp]
  refine (Plm_hasDerivAt l m t hs.ne').congr_of_eventuallyEq ?_
  filter_upwards [Ioo_mem_nhds h0 hp] with y hy
  obtain ⟨s', hc', hg'⟩ := colombo_closed eps LMAX hL (Real.cos y)
  rw [hc']
  simp only [Option.map_some, Option.getD_some]
  rw [(hg' l m).1, if_pos (by omega), hU y hy.1 hy.2]

/-- C32: likewise for the other two routines, whose outputs coincide with those of `plm_colombo` -/
theorem derivative_all (eps scalef : ℝ) (hsc : scalef ≠ 0) (LMAX MMAX : ℕ) (hL : 2 ≤ LMAX) (t : ℝ)
    (h0 : 0 < t) (hp : t < Real.pi) (l m : ℕ) (hl : l ≤ LMAX) (hm : m ≤ MMAX) :
    HasDerivAt (fun t => (mohlenkamp eps LMAX MMAX (Real.cos t)).p l m)
        ((mohlenkamp eps LMAX MMAX (Real.cos t)).d l m) t ∧
    ∃ s, holmes eps scalef LMAX (Real.cos t) = some s ∧
      HasDerivAt (fun t => ((holmes eps scalef LMAX (Real.cos t)).map fun s => s.p l m).getD 0)
        (s.d l m) t := by
  obtain ⟨s, hc, hd⟩ := colombo_derivative eps LMAX (by omega) t h0 hp l m hl
  have hag : ∀ y, (mohlenkamp eps LMAX MMAX y).p l m = ((colombo eps LMAX y).map fun s => s.p l m).getD 0 ∧
      ((holmes eps scalef LMAX y).map fun s => s.p l m).getD 0 =
        ((colombo eps LMAX y).map fun s => s.p l m).getD 0 := by
    intro y
    obtain ⟨c, h, hc, hh, ha⟩ := algorithms_agree eps scalef hsc LMAX MMAX hL y
    rw [hc, hh]
    exact ⟨((ha l m).2.2 hm).1, (ha l m).1⟩
  obtain ⟨c, h, hc', hh, ha⟩ := algorithms_agree eps scalef hsc LMAX MMAX hL (Real.cos t)
  rw [hc] at hc'
  obtain rfl : s = c := Option.some.inj hc'
  refine ⟨?_, h, hh, ?_⟩
  · rw [((ha l m).2.2 hm).2]
    exact hd.congr_of_eventuallyEq (Filter.Eventually.of_forall fun y => (hag (Real.cos y)).1)
  · rw [(ha l m).2.1]
    exact hd.congr_of_eventuallyEq (Filter.Eventually.of_forall fun y => (hag (Real.cos y)).2)

/-- non-vacuity of C32: the equator -/
example : ∃ s, colombo (1 / 2 ^ 52) 5 (Real.cos (Real.pi / 2)) = some s ∧
    HasDerivAt (fun t => ((colombo (1 / 2 ^ 52) 5 (Real.cos t)).map fun s => s.p 4 2).getD 0) (s.d 4 2)
      (Real.pi / 2) :=
  colombo_derivative _ 5 (by norm_num) _ (by positivity) (by linarith [Real.pi_pos]) 4 2 (by norm_num)

/-! ## C33: legendre_polynomials -/

/-- `P_l(1) = 1` -/
theorem dLeg_at_one (l : ℕ) : dLeg l 0 1 = 1 := by
  induction l using Nat.strong_induction_on with
  | _ l ih =>
    rcases l with _ | _ | l
    · exact dLeg_zero_zero 1
    · exact dLeg_one_zero 1
    · have h := dLeg_rec l 0 1
      rw [ih (l + 1) (by omega), ih l (by omega)] at h
      have h2 : (l + 2 : ℝ) ≠ 0 := by positivity
      apply mul_left_cancel₀ h2
      push_cast at h
      linear_combination h

/-- `P_l(-1) = (-1)^l`; with `dLeg_at_one`: `P_l(x) = x^l` at both poles -/
theorem dLeg_at_pole (l : ℕ) (x : ℝ) (hx : x ^ 2 = 1) : dLeg l 0 x = x ^ l := by
  induction l using Nat.strong_induction_on with
  | _ l ih =>
    rcases l with _ | _ | l
    · simpa using dLeg_zero_zero x
    · simpa using dLeg_one_zero x
    · have h := dLeg_rec l 0 x
      rw [ih (l + 1) (by omega), ih l (by omega)] at h
      have h2 : (l + 2 : ℝ) ≠ 0 := by positivity
      apply mul_left_cancel₀ h2
      push_cast at h
      have e1 : x ^ (l + 2) = x ^ l * 1 := by rw [pow_add, hx]
      have e2 : x * x ^ (l + 1) = x ^ l * 1 := by rw [← hx, pow_succ]; ring
      rw [show l + 1 + 1 = l + 2 from rfl, e1]
      linear_combination h + (2 * (l : ℝ) + 3) * e2

theorem nrm_order_zero (l : ℕ) : nrm l 0 = Real.sqrt (2 * l + 1) := by
  have := nrm_add 0 l
  rw [Nat.zero_add] at this
  rw [this]
  congr 1
  have : (l ! : ℝ) ≠ 0 := by positivity
  unfold dlt
  simp
  field_simp

theorem lp_good (x : ℝ) (pole : Bool) (hp : pole = true → x ^ 2 = 1) (n : ℕ) :
    ∃ s, (List.range' 2 n).foldl (lpStep x pole)
      (set1 (set1 (fun _ => 0) 0 1) 1 x, set1 (set1 (fun _ => 0) 0 1) 1 (Real.sqrt 3 * x)) = s ∧
      ∀ l ≤ n + 1, s.1 l = dLeg l 0 x ∧ s.2 l = Real.sqrt (2 * l + 1) * dLeg l 0 x := by
  induction n with
  | zero =>
    refine ⟨_, rfl, ?_⟩
    intro l hl
    rcases l with _ | _ | l
    · simp [set1, dLeg_zero_zero]
    · simp [set1, dLeg_one_zero]; norm_num
    · omega
  | succ n ih =>
    obtain ⟨t, ht, ih⟩ := ih
    rw [List.range'_concat, List.foldl_append, ht, Nat.one_mul, Nat.add_comm 2 n]
    refine ⟨_, rfl, ?_⟩
    intro l hl
    simp only [List.foldl_cons, List.foldl_nil, lpStep]
    have hr := dLeg_rec n 0 x
    have hv : (2 * ((n + 2 : ℕ) : ℝ) - 1) / ((n + 2 : ℕ) : ℝ) * x * t.1 (n + 2 - 1) -
        (((n + 2 : ℕ) : ℝ) - 1) / ((n + 2 : ℕ) : ℝ) * t.1 (n + 2 - 2) = dLeg (n + 2) 0 x := by
      rw [(ih (n + 2 - 1) (by omega)).1, (ih (n + 2 - 2) (by omega)).1]
      have h2 : (n + 2 : ℝ) ≠ 0 := by positivity
      rw [show n + 2 - 1 = n + 1 from rfl, show n + 2 - 2 = n from rfl]
      push_cast at *
      field_simp
      linear_combination -hr
    rw [hv]
    by_cases c : l = n + 2
    · subst c
      refine ⟨by simp [set1], ?_⟩
      cases pole with
      | false => simp [set1]
      | true => simp [set1, dLeg_at_pole _ x (hp rfl)]
    · refine ⟨by simp only [set1, if_neg c]; exact (ih l (by omega)).1, ?_⟩
      cases pole with
      | false =>
        rw [if_neg (by simp)]
        simp only [set1, if_neg c]; exact (ih l (by omega)).2
      | true =>
        rw [if_pos rfl]
        simp only [set1, if_neg c]; exact (ih l (by omega)).2

theorem legendrePolynomials_closed (eps : ℝ) (lmax : ℕ) (hl : 1 ≤ lmax) (x : ℝ) (hx : x ^ 2 ≤ 1) :
    ∃ s, legendrePolynomials eps lmax x = some s ∧
      (∀ l ≤ lmax, s.1 l = Real.sqrt (2 * l + 1) * dLeg l 0 x) ∧
      ∀ l, 1 ≤ l → l ≤ lmax → s.2 l = Dlm x (codeU eps x) l 0 := by
  unfold legendrePolynomials
  rw [if_neg (by omega)]
  obtain ⟨t, ht, h⟩ := lp_good x (Real.sqrt (1 - x ^ 2) = 0) (by
    intro hd
    have := of_decide_eq_true hd
    rw [Real.sqrt_eq_zero (by linarith)] at this
    linarith) (lmax - 1)
  refine ⟨_, rfl, ?_, ?_⟩
  · intro l hl'
    dsimp only
    rw [ht]
    exact (h l (by omega)).2
  · intro l h1 h2
    dsimp only
    rw [ht, if_pos ⟨h1, h2⟩, Dlm, if_neg (by omega), if_neg (by omega), (h l (by omega)).2,
      (h (l - 1) (by omega)).2, Plm, Plm, nrm_order_zero, nrm_order_zero]
    simp only [flm, pow_zero, mul_one, CharP.cast_eq_zero]
    norm_num

/-- C33: `legendre_polynomials` returns `sqrt(2l+1) P_l(x)` with `P_l` given by Rodrigues' formula,
for every `x` in `[-1,1]`, the poles included -/
theorem legendrePolynomials_correct (eps : ℝ) (lmax : ℕ) (hl : 1 ≤ lmax) (x : ℝ) (hx : x ^ 2 ≤ 1) :
    ∃ s, legendrePolynomials eps lmax x = some s ∧
      ∀ l ≤ lmax, s.1 l = Real.sqrt (2 * l + 1) * (legendreP l).eval x := by
  obtain ⟨s, hs, h, _⟩ := legendrePolynomials_closed eps lmax hl x hx
  exact ⟨s, hs, h⟩

/-- C33: it agrees with order zero of `plm_colombo`, functions and derivatives, for every `x` -/
theorem legendrePolynomials_agree (eps : ℝ) (lmax : ℕ) (hl : 1 ≤ lmax) (x : ℝ) (hx : x ^ 2 ≤ 1) :
    ∃ s c, legendrePolynomials eps lmax x = some s ∧ colombo eps lmax x = some c ∧
      ∀ l ≤ lmax, s.1 l = c.p l 0 ∧ (1 ≤ l → s.2 l = c.d l 0) := by
  obtain ⟨s, hs, h1, h2⟩ := legendrePolynomials_closed eps lmax hl x hx
  obtain ⟨c, hc, hg⟩ := colombo_closed eps lmax hl x
  refine ⟨s, c, hs, hc, fun l hl' => ⟨?_, fun h => ?_⟩⟩
  · rw [h1 l hl', (hg l 0).1, if_pos (by omega), Plm, nrm_order_zero]; simp
  · rw [h2 l h hl', (hg l 0).2, if_pos (by omega)]

/-- C33: at the north pole every returned value is `sqrt(2l+1)` -/
theorem legendrePolynomials_north (eps : ℝ) (lmax : ℕ) (hl : 1 ≤ lmax) :
    ∃ s, legendrePolynomials eps lmax 1 = some s ∧ ∀ l ≤ lmax, s.1 l = Real.sqrt (2 * l + 1) := by
  obtain ⟨s, hs, h1, _⟩ := legendrePolynomials_closed eps lmax hl 1 (by norm_num)
  refine ⟨s, hs, fun l hl' => ?_⟩
  rw [h1 l hl', dLeg_at_one, mul_one]

/-- C33: the second output is the derivative with respect to colatitude -/
theorem legendrePolynomials_derivative (eps : ℝ) (lmax : ℕ) (hl : 1 ≤ lmax) (t : ℝ) (h0 : 0 < t)
    (hp : t < Real.pi) (l : ℕ) (h1 : 1 ≤ l) (h2 : l ≤ lmax) :
    ∃ s, legendrePolynomials eps lmax (Real.cos t) = some s ∧
      HasDerivAt (fun t => Real.sqrt (2 * l + 1) * (legendreP l).eval (Real.cos t)) (s.2 l) t := by
  have hs := Real.sin_pos_of_pos_of_lt_pi h0 hp
  have hh := Real.sin_sq_add_cos_sq t
  obtain ⟨s, hss, _, hd⟩ := legendrePolynomials_closed eps lmax hl (Real.cos t) (by nlinarith)
  refine ⟨s, hss, ?_⟩
  have hU : codeU eps (Real.cos t) = Real.sin t := by
    rw [codeU_interior _ _ (by nlinarith), show 1 - Real.cos t ^ 2 = Real.sin t ^ 2 by linarith, Real.sqrt_sq hs.le]
  rw [hd l h1 h2, hU]
  have := Plm_hasDerivAt l 0 t hs.ne'
  have he : (fun t => Plm l 0 (Real.cos t) (Real.sin t)) =
      fun t => Real.sqrt (2 * l + 1) * (legendreP l).eval (Real.cos t) := by
    funext y
    rw [Plm, nrm_order_zero]; simp [dLeg]
  rwa [he] at this

/-- non-vacuity of C33: `x = -1` and `x = 3/5` are covered -/
example : ∃ s, legendrePolynomials (1 / 2 ^ 52) 3 (-1) = some s ∧
    s.1 3 = Real.sqrt (2 * (3 : ℕ) + 1) * (legendreP 3).eval (-1) := by
  obtain ⟨s, hs, h⟩ := legendrePolynomials_correct (1 / 2 ^ 52) 3 (by norm_num) (-1) (by norm_num)
  exact ⟨s, hs, h 3 le_rfl⟩

end Verif.Legendre
