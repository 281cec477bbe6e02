import Verif.Legendre.SingleModel
import Verif.Legendre.Spec
import Verif.Legendre.Props

/-!
# Property C63: `legendre(l, x)` returns the associated Legendre functions of one degree
-/
namespace Verif.Legendre
open Nat

/-- differential equation of the associated functions as a recursion in the order -/
theorem dLeg_order_rec (l m : ℕ) (x : ℝ) :
    (1 - x ^ 2) * dLeg l (m + 2) x = 2 * (m + 1) * x * dLeg l (m + 1) x - (l - m) * (l + m + 1) * dLeg l m x := by
  cases l with
  | zero =>
    rw [dLeg_zero_of_lt 0 (m + 2) (by omega), dLeg_zero_of_lt 0 (m + 1) (by omega)]
    cases m with
    | zero => simp
    | succ m => rw [dLeg_zero_of_lt 0 (m + 1) (by omega)]; ring
  | succ l =>
    have hb : ∀ l m, below l (m + 1) x = dLeg l m x := by
      intro l m; rw [below, dLeg_T]; rfl
    have h1 := dLeg_deriv l (m + 1) x
    have h2 := dLeg_below (l + 1) (m + 1) x
    have h3 := dLeg_below' l (m + 1) x
    rw [hb] at h2 h3
    push_cast at *
    linear_combination -h1 + ((l : ℝ) + m + 2) * (h2 - h3)

/-- Schmidt-like factor `sqrt((l-m)!/(l+m)!)` -/
noncomputable def qn (l m : ℕ) : ℝ := Real.sqrt ((l - m)! / (l + m)!)

theorem qn_pos (l m : ℕ) : 0 < qn l m := Real.sqrt_pos.2 (by positivity)

theorem qn_succ (l m : ℕ) (h : m < l) : qn l m = rootl (l + m + 1) * rootl (l - m) * qn l (m + 1) := by
  unfold qn rootl
  rw [← Real.sqrt_mul (by positivity), ← Real.sqrt_mul (by positivity)]
  congr 1
  obtain ⟨k, rfl⟩ : ∃ k, l = m + (k + 1) := ⟨l - m - 1, by omega⟩
  rw [show m + (k + 1) - m = k + 1 by omega, show m + (k + 1) - (m + 1) = k by omega,
    show m + (k + 1) + (m + 1) = (m + (k + 1) + m) + 1 by omega, factorial_succ (m + (k + 1) + m),
    factorial_succ k]
  have h1 : ((m + (k + 1) + m)! : ℝ) ≠ 0 := by positivity
  have h2 : ((m + (k + 1) + m : ℕ) : ℝ) + 1 ≠ 0 := by positivity
  push_cast at *
  field_simp

theorem rootl_sq (k : ℕ) : rootl k * rootl k = k := Real.mul_self_sqrt (by positivity)

theorem rootl_pos (k : ℕ) (h : 0 < k) : 0 < rootl k := Real.sqrt_pos.2 (by exact_mod_cast h)

/-- value the column holds: `(-1)^m sqrt((l-m)!/(l+m)!) s^m d^m P_l` -/
noncomputable def Qlm (l m : ℕ) (x s : ℝ) : ℝ := (-1) ^ m * qn l m * s ^ m * dLeg l m x

theorem Q_rec (l m : ℕ) (h : m < l) (x s : ℝ) (hs : s ≠ 0) (hx : s ^ 2 = 1 - x ^ 2) :
    (Qlm l (m + 1) x s * (-2 * x / s) * ((m : ℝ) + 1) - Qlm l (m + 2) x s * rootl (l + m + 2) * rootl (l - m - 1)) /
      (rootl (l + m + 1) * rootl (l - m)) = Qlm l m x s := by
  have h1 := rootl_pos (l + m + 1) (by omega)
  have h2 := rootl_pos (l - m) (by omega)
  rw [div_eq_iff (by positivity)]
  have h3 := rootl_sq (l + m + 1)
  have h4 := rootl_sq (l - m)
  have ho := dLeg_order_rec l m x
  have h5 : Qlm l (m + 2) x s * rootl (l + m + 2) * rootl (l - m - 1) =
      (-1) ^ m * s ^ m * s ^ 2 * qn l (m + 1) * dLeg l (m + 2) x := by
    rcases Nat.lt_or_ge (m + 1) l with hl | hl
    · have := qn_succ l (m + 1) hl
      rw [show l + (m + 1) + 1 = l + m + 2 by ring, show l - (m + 1) = l - m - 1 by omega] at this
      rw [this]; unfold Qlm; ring
    · rw [Qlm, dLeg_zero_of_lt l (m + 2) (by omega)]; ring
  rw [h5]
  have h6 : Qlm l (m + 1) x s * (-2 * x / s) * ((m : ℝ) + 1) =
      (-1) ^ m * s ^ m * qn l (m + 1) * (2 * (m + 1) * x * dLeg l (m + 1) x) := by
    unfold Qlm
    rw [pow_succ, pow_succ]
    field_simp
  rw [h6, hx]
  have h7 : Qlm l m x s * (rootl (l + m + 1) * rootl (l - m)) =
      (-1) ^ m * s ^ m * qn l (m + 1) * ((l + m + 1) * (l - m) * dLeg l m x) := by
    unfold Qlm
    rw [qn_succ l m h]
    push_cast [Nat.cast_sub h.le] at h3 h4
    have : rootl (l + m + 1) * rootl (l - m) * (rootl (l + m + 1) * rootl (l - m)) =
      (l + m + 1) * (l - m) := by
      rw [mul_mul_mul_comm, h3, h4]
    linear_combination ((-1) ^ m * s ^ m * qn l (m + 1) * dLeg l m x) * this
  rw [h7]
  linear_combination (-(-1) ^ m * s ^ m * qn l (m + 1)) * ho

/-- starting value: `sqrt(prod(1-1/(2i))) (-s)^l` -/
theorem Q_sectoral (l : ℕ) (x s : ℝ) :
    Real.sqrt ((List.range l).map fun i : ℕ => 1 - 1 / (2 * (i : ℝ) + 2)).prod * (-s) ^ l = Qlm l l x s := by
  have hk : ∀ l, 0 ≤ dLeg l l x ∧
      ((List.range l).map fun i : ℕ => 1 - 1 / (2 * (i : ℝ) + 2)).prod = dLeg l l x ^ 2 / (2 * l)! := by
    intro l
    induction l with
    | zero => simp [dLeg_zero_zero]
    | succ l ih =>
      rw [dLeg_sectoral]
      constructor
      · have := ih.1; positivity
      · rw [List.range_succ, List.map_append, List.prod_append, ih.2, show 2 * (l + 1) = 2 * l + 1 + 1 by ring,
          factorial_succ (2 * l + 1), factorial_succ (2 * l)]
        have h1 : ((2 * l)! : ℝ) ≠ 0 := by positivity
        have h2 : (2 * (l : ℝ) + 2) ≠ 0 := by positivity
        have h3 : (2 * (l : ℝ) + 1) ≠ 0 := by positivity
        have h4 : (2 * (l : ℝ) + 1 + 1) ≠ 0 := by positivity
        simp only [List.map_cons, List.map_nil, List.prod_cons, List.prod_nil, mul_one]
        push_cast
        field_simp
        ring
  obtain ⟨h1, h2⟩ := hk l
  rw [h2, Real.sqrt_div (sq_nonneg _), Real.sqrt_sq h1]
  unfold Qlm qn
  rw [Nat.sub_self, factorial_zero, show l + l = 2 * l by ring, neg_pow s l]
  push_cast
  rw [Real.sqrt_div zero_le_one, Real.sqrt_one]
  ring

theorem legNormal_closed (l : ℕ) (hl : 1 ≤ l) (x s : ℝ) (hs : s ≠ 0) (hx : s ^ 2 = 1 - x ^ 2) (P0 : ℕ → ℝ)
    (m : ℕ) (hm : m ≤ l) : legNormal l x s P0 m = Qlm l m x s := by
  unfold legNormal
  obtain ⟨P1, hP1⟩ : ∃ P, P = set1 P0 l
    (Real.sqrt ((List.range l).map fun i : ℕ => 1 - 1 / (2 * (i : ℝ) + 2)).prod * (-s) ^ l) := ⟨_, rfl⟩
  rw [← hP1]
  have hP1l : P1 l = Qlm l l x s := by rw [hP1, ← Q_sectoral l x s]; simp [set1]
  have key : ∀ n ≤ l - 1, ∃ t, (List.range n).foldl (fun P i => legStep l (-2 * x / s) P (l - 2 - i))
      (set1 P1 (l - 1) (P1 l * (-2 * x / s) * l / rootl (2 * l))) = t ∧
      ∀ m, l - 1 - n ≤ m → m ≤ l → t m = Qlm l m x s := by
    intro n
    induction n with
    | zero =>
      intro _
      refine ⟨_, rfl, fun m h1 h2 => ?_⟩
      simp only [List.range_zero, List.foldl_nil]
      unfold set1
      by_cases hm : m = l - 1
      · rw [if_pos hm, hm, hP1l]
        have := Q_rec l (l - 1) (by omega) x s hs hx
        rw [show l - 1 + 1 = l by omega, show l - 1 + 2 = l + 1 by omega,
          show Qlm l (l + 1) x s = 0 by rw [Qlm, dLeg_zero_of_lt l (l + 1) (by omega), mul_zero],
          show l + (l - 1) + 1 = 2 * l by omega, show l - (l - 1) = 1 by omega] at this
        rw [← this]
        have h1 : rootl 1 = 1 := by simp [rootl]
        rw [h1, Nat.cast_sub hl]
        push_cast
        ring
      · rw [if_neg hm, show m = l by omega, hP1l]
    | succ n ih =>
      intro hn
      obtain ⟨t, ht, h⟩ := ih (by omega)
      rw [List.range_succ, List.foldl_append, ht]
      refine ⟨_, rfl, fun m h1 h2 => ?_⟩
      simp only [List.foldl_cons, List.foldl_nil, legStep, set1]
      by_cases hm : m = l - 2 - n
      · rw [if_pos hm, h (l - 2 - n + 1) (by omega) (by omega), h (l - 2 - n + 2) (by omega) (by omega),
          Q_rec l (l - 2 - n) (by omega) x s hs hx, hm]
      · rw [if_neg hm]; exact h m (by omega) h2
  obtain ⟨t, ht, h⟩ := key (l - 1) le_rfl
  rw [ht]
  exact h m (by omega) hm

/-- the input is in the regime where the code computes exactly: the sectoral power does not underflow -/
def NoUnderflow (tol : ℝ) (l : ℕ) (x : ℝ) : Prop := tol ≤ Real.sqrt (1 - x ^ 2) ^ l

theorem legRaw_interior (tol : ℝ) (under : ℕ → ℝ → ℕ → ℝ) (l : ℕ) (hl : 1 ≤ l) (x : ℝ) (hx : x ^ 2 < 1)
    (hu : NoUnderflow tol l x) (m : ℕ) (hm : m ≤ l) :
    legRaw tol under l x m = Qlm l m x (Real.sqrt (1 - x ^ 2)) := by
  have hs : 0 < Real.sqrt (1 - x ^ 2) := Real.sqrt_pos.2 (by linarith)
  unfold legRaw
  rw [if_neg hs.ne', if_pos]
  · exact legNormal_closed l hl x _ hs.ne' (Real.sq_sqrt (by linarith)) _ m hm
  · refine ⟨?_, ?_⟩
    · rintro rfl; norm_num at hx
    · rw [abs_pow, abs_neg, abs_of_pos hs]; exact hu

theorem legRaw_pole (tol : ℝ) (ht : 0 < tol) (under : ℕ → ℝ → ℕ → ℝ) (l : ℕ) (hl : 1 ≤ l) (x : ℝ)
    (hx : x ^ 2 = 1) (m : ℕ) : legRaw tol under l x m = Qlm l m x 0 := by
  have hs : Real.sqrt (1 - x ^ 2) = 0 := by rw [hx]; simp
  unfold legRaw
  simp only [hs]
  have h0 : (-0 : ℝ) ^ l = 0 := by rw [neg_zero, zero_pow (by omega)]
  rw [if_pos trivial, if_neg (by rw [h0, abs_zero]; rintro ⟨-, h⟩; linarith),
    if_neg (by rintro ⟨h, -⟩; exact lt_irrefl _ h)]
  unfold set1 Qlm
  by_cases hm : m = 0
  · subst hm
    have : qn l 0 = 1 := by
      unfold qn
      rw [Nat.sub_zero, Nat.add_zero, div_self (by positivity), Real.sqrt_one]
    simp [dLeg_at_pole l x hx, this]
  · rw [if_neg hm, zero_pow hm]; ring

theorem nrm_qn (l m : ℕ) : nrm l m = (if m = 0 then Real.sqrt (2 * l + 1) else Real.sqrt (2 * (2 * l + 1))) * qn l m := by
  unfold nrm qn
  split_ifs
  · rw [← Real.sqrt_mul (by positivity)]; congr 1; ring
  · rw [← Real.sqrt_mul (by positivity)]; congr 1; ring

theorem neg_one_sq (m : ℕ) : ((-1 : ℝ)) ^ m * (-1) ^ m = 1 := by
  rw [← mul_pow]; norm_num

theorem legendre_norm_of (tol : ℝ) (under : ℕ → ℝ → ℕ → ℝ) (l : ℕ) (x s : ℝ) (m : ℕ) (hm : m ≤ l)
    (h : 1 ≤ l → legRaw tol under l x m = Qlm l m x s) :
    legendre tol under l x true m = Plm l m x s := by
  unfold legendre
  by_cases hl : l = 0
  · subst hl
    rw [if_pos rfl, show m = 0 by omega, Plm_zero_zero]
  · rw [if_neg hl]
    simp only [if_true]
    rw [h (by omega), Plm, nrm_qn]
    unfold Qlm
    by_cases h0 : m = 0
    · subst h0; simp; ring
    · rw [if_neg h0, if_neg h0]
      linear_combination (qn l m * s ^ m * dLeg l m x * Real.sqrt (2 * (2 * l + 1))) * neg_one_sq m

/-- C63: with `NORMALIZE=True` the values are the fully normalised associated Legendre functions (no
Condon-Shortley phase), for all degrees and orders and every `x` strictly between the poles whose
sectoral power does not underflow -/
theorem legendre_normalized (tol : ℝ) (under : ℕ → ℝ → ℕ → ℝ) (l : ℕ) (x : ℝ) (hx : x ^ 2 < 1)
    (hu : NoUnderflow tol l x) (m : ℕ) (hm : m ≤ l) :
    legendre tol under l x true m = Plm l m x (Real.sqrt (1 - x ^ 2)) :=
  legendre_norm_of tol under l x _ m hm fun hl => legRaw_interior tol under l hl x hx hu m hm

/-- C63: also at both poles -/
theorem legendre_normalized_pole (tol : ℝ) (ht : 0 < tol) (under : ℕ → ℝ → ℕ → ℝ) (l : ℕ) (x : ℝ)
    (hx : x ^ 2 = 1) (m : ℕ) (hm : m ≤ l) : legendre tol under l x true m = Plm l m x 0 :=
  legendre_norm_of tol under l x _ m hm fun hl => legRaw_pole tol ht under l hl x hx m

/-- product of square roots of consecutive integers -/
theorem rootl_prod (a n : ℕ) :
    ((List.range n).map fun i : ℕ => rootl (a + 1 + i)).prod = Real.sqrt ((a + n)! / a !) := by
  induction n with
  | zero => simp [div_self (show (a ! : ℝ) ≠ 0 by positivity)]
  | succ n ih =>
    rw [List.range_succ, List.map_append, List.prod_append, ih]
    simp only [List.map_cons, List.map_nil, List.prod_cons, List.prod_nil, mul_one]
    unfold rootl
    rw [← Real.sqrt_mul (by positivity)]
    congr 1
    rw [show a + (n + 1) = a + n + 1 by ring, factorial_succ (a + n)]
    push_cast
    ring

theorem legendre_unnorm_of (tol : ℝ) (under : ℕ → ℝ → ℕ → ℝ) (l : ℕ) (x s : ℝ) (m : ℕ) (hm : m ≤ l)
    (h : 1 ≤ l → legRaw tol under l x m = Qlm l m x s) :
    legendre tol under l x false m = (-1) ^ m * s ^ m * dLeg l m x := by
  unfold legendre
  by_cases hl : l = 0
  · subst hl
    rw [if_pos rfl, show m = 0 by omega, dLeg_zero_zero]; simp
  · rw [if_neg hl]
    simp only [Bool.false_eq_true, if_false]
    rw [h (by omega)]
    have hq : ∀ m, m ≤ l → qn l m * Real.sqrt ((l + m)! / (l - m)!) = 1 := by
      intro m _
      unfold qn
      rw [← Real.sqrt_mul (by positivity), Real.sqrt_eq_one]
      have h1 : ((l + m)! : ℝ) ≠ 0 := by positivity
      have h2 : ((l - m)! : ℝ) ≠ 0 := by positivity
      field_simp
    by_cases hml : m = l
    · rw [if_pos hml]
      have := rootl_prod 0 (2 * l)
      simp only [Nat.zero_add] at this
      rw [this, hml]
      have h1 := hq l le_rfl
      rw [Nat.sub_self, show l + l = 2 * l by ring] at h1
      unfold Qlm
      linear_combination ((-1) ^ l * s ^ l * dLeg l l x) * h1
    · rw [if_neg hml]
      by_cases h0 : 1 ≤ m
      · rw [if_pos h0, rootl_prod (l - m) (2 * m), show l - m + 2 * m = l + m by omega]
        unfold Qlm
        linear_combination ((-1) ^ m * s ^ m * dLeg l m x) * hq m hm
      · rw [if_neg h0]
        have : m = 0 := by omega
        subst this
        have h1 : qn l 0 = 1 := by
          unfold qn
          rw [Nat.sub_zero, Nat.add_zero, div_self (by positivity), Real.sqrt_one]
        unfold Qlm; rw [h1]; ring

/-- C63: without normalisation the values are those of Abramowitz and Stegun,
`(-1)^m (1-x^2)^(m/2) d^m P_l/dx^m` -/
theorem legendre_unnormalized (tol : ℝ) (under : ℕ → ℝ → ℕ → ℝ) (l : ℕ) (x : ℝ) (hx : x ^ 2 < 1)
    (hu : NoUnderflow tol l x) (m : ℕ) (hm : m ≤ l) :
    legendre tol under l x false m = (-1) ^ m * Real.sqrt (1 - x ^ 2) ^ m * dLeg l m x :=
  legendre_unnorm_of tol under l x _ m hm fun hl => legRaw_interior tol under l hl x hx hu m hm

theorem legendre_unnormalized_pole (tol : ℝ) (ht : 0 < tol) (under : ℕ → ℝ → ℕ → ℝ) (l : ℕ) (x : ℝ)
    (hx : x ^ 2 = 1) (m : ℕ) (hm : m ≤ l) :
    legendre tol under l x false m = (-1) ^ m * 0 ^ m * dLeg l m x :=
  legendre_unnorm_of tol under l x _ m hm fun hl => legRaw_pole tol ht under l hl x hx m

/-- C63: agreement with the column recursion of `plm_holmes` and `plm_colombo` -/
theorem legendre_agrees (tol eps : ℝ) (under : ℕ → ℝ → ℕ → ℝ) (LMAX : ℕ) (hL : 1 ≤ LMAX) (x : ℝ) (hx : x ^ 2 < 1)
    (l : ℕ) (hl : l ≤ LMAX) (hu : NoUnderflow tol l x) (m : ℕ) (hm : m ≤ l) :
    ∃ c, colombo eps LMAX x = some c ∧ legendre tol under l x true m = c.p l m := by
  obtain ⟨c, hc, h⟩ := colombo_correct eps LMAX hL x hx
  exact ⟨c, hc, by rw [legendre_normalized tol under l x hx hu m hm, h l hl m]⟩

/-- the hypotheses are met: degree 60 at 45 degrees with the tolerance of double precision -/
example : NoUnderflow (1 / 10 ^ 153) 60 (3 / 5) ∧ ((3 : ℝ) / 5) ^ 2 < 1 := by
  refine ⟨?_, by norm_num⟩
  unfold NoUnderflow
  rw [show (1 : ℝ) - (3 / 5) ^ 2 = (4 / 5) ^ 2 by norm_num, Real.sqrt_sq (by norm_num)]
  norm_num

end Verif.Legendre
